import Verif.ObjCap
/-! # The table with capture objects and the table with capture trees: operations -/
namespace Gpeg.Obj
open LazyLog

/-- The object `r` is one of `rs` or below one of them. -/
inductive Below (H : List CObj) (rs : List Ref) : Ref → Prop
  | here {r : Ref} : r ∈ rs → Below H rs r
  | child {r k : Ref} {c : CObj} : Below H rs r → H[r]? = some c → k ∈ c.children → Below H rs k

theorem Below.mono {H : List CObj} {rs rs' : List Ref} (h : ∀ r ∈ rs, Below H rs' r) {r : Ref} (hb : Below H rs r) : Below H rs' r := by
  induction hb with
  | here hr => exact h _ hr
  | child _ hc hk ih => exact .child ih hc hk

theorem Below.adopted {H : List CObj} {rs : List Ref} (hc : Closed (fun _ => False) H) (h : ∀ r ∈ rs, Adopted H r) {r : Ref}
    (hb : Below H rs r) : Adopted H r := by
  induction hb with
  | here hr => exact h _ hr
  | child _ hc' hk ih =>
    obtain ⟨c, h1, h2⟩ := ih
    rw [h1] at hc'
    cases hc'
    rcases hc _ _ h1 h2 with h | h
    · exact h _ hk
    · exact h.elim

/-- An edit that does to the entries the captures of an entry belong to what it does to that entry: when it does not meet an
entry in the tree, it meets none of these and moves them as far. (And no capture of the entry starts before the entry, which
is the case for all code made by the compiler.) -/
def Tight (T : OTab) (e : Edit) : Prop :=
  ∀ f ∈ T.flat, ∀ i ∈ f.ins, ¬ Meets e i.low i.high → ∀ x, T.ents[i.val]? = some x → ∀ (r : Nat) (c : CObj),
    Below T.caps x.captures r → T.caps[r]? = some c → i.low ≤ T.start c ∧ ∀ A, c.ment = some A → ∀ lo hi, Holds T A lo hi →
      ¬ Meets e lo hi ∧ toward e lo - lo = toward e i.low - i.low

mutual
/-- No capture of the tree starts before `a`. -/
def Ge (a : Nat) : Capture → Prop
  | .node _ s _ ch => a ≤ s ∧ GeL a ch
  | .dummy s _ ch => a ≤ s ∧ GeL a ch
/-- `Ge` for all elements. -/
def GeL (a : Nat) : List Capture → Prop
  | [] => True
  | v :: vs => Ge a v ∧ GeL a vs
end

mutual
theorem reads_ge {b : Bool} {T : OTab} (hT : TInv b T) (a : Nat) : ∀ {v : Capture} {r : Ref}, Reads T r v →
    (∀ (k : Nat) (c : CObj), Below T.caps [r] k → T.caps[k]? = some c → (a : Int) ≤ T.start c) → Ge a v
  | .node id s n ch, r, h, hb => by
    rw [Reads] at h
    obtain ⟨c, h0, -, -, -, h4, h5⟩ := h
    rw [Ge]
    have := hb r c (.here (List.mem_singleton.2 rfl)) h0
    rw [h4.start hT] at this
    refine ⟨by omega, readsL_ge hT a h5 fun k c' hk => hb k c' (hk.mono fun x hx => ?_)⟩
    exact .child (.here (List.mem_singleton.2 rfl)) h0 hx
  | .dummy s n ch, r, h, hb => by
    rw [Reads] at h
    obtain ⟨c, h0, -, -, h4, h5⟩ := h
    rw [Ge]
    have := hb r c (.here (List.mem_singleton.2 rfl)) h0
    rw [h4.start hT] at this
    refine ⟨by omega, readsL_ge hT a h5 fun k c' hk => hb k c' (hk.mono fun x hx => ?_)⟩
    exact .child (.here (List.mem_singleton.2 rfl)) h0 hx
theorem readsL_ge {b : Bool} {T : OTab} (hT : TInv b T) (a : Nat) : ∀ {vs : List Capture} {rs : List Ref}, ReadsL T rs vs →
    (∀ (k : Nat) (c : CObj), Below T.caps rs k → T.caps[k]? = some c → (a : Int) ≤ T.start c) → GeL a vs
  | [], rs, _, _ => by rw [GeL]; trivial
  | v :: vs, rs, h, hb => by
    rw [ReadsL] at h
    obtain ⟨r, rs', rfl, h1, h2⟩ := h
    rw [GeL]
    refine ⟨reads_ge hT a h1 fun k c hk => hb k c (hk.mono fun x hx => .here ?_),
      readsL_ge hT a h2 fun k c hk => hb k c (hk.mono fun x hx => .here (List.mem_cons_of_mem _ hx))⟩
    rw [List.mem_singleton.1 hx]; exact List.mem_cons_self
end

mutual
theorem reads_move {T T' : OTab} {a p p' : Nat} (hc : T'.caps = T.caps) : ∀ {v : Capture} {r : Ref}, Reads T r (v.shift a p) → Ge a v →
    (∀ (k : Nat) (c : CObj), Below T.caps [r] k → T.caps[k]? = some c → ∀ s, Placed T c s → Placed T' c (s + p' - p)) →
    Reads T' r (v.shift a p')
  | .node id s n ch, r, h, hg, hm => by
    rw [Capture.shift, Reads] at h ⊢
    obtain ⟨c, h0, h1, h2, h3, h4, h5⟩ := h
    rw [Ge] at hg
    refine ⟨c, by rw [hc]; exact h0, h1, h2, h3, ?_, readsL_move hc h5 hg.2 fun k c' hk => hm k c' (hk.mono fun x hx => ?_)⟩
    · have := hm r c (.here (List.mem_singleton.2 rfl)) h0 _ h4
      have e : ((s + p' - a : Nat) : Int) = ((s + p - a : Nat) : Int) + p' - p := by omega
      rw [e]; exact this
    · exact .child (.here (List.mem_singleton.2 rfl)) h0 hx
  | .dummy s n ch, r, h, hg, hm => by
    rw [Capture.shift, Reads] at h ⊢
    obtain ⟨c, h0, h1, h3, h4, h5⟩ := h
    rw [Ge] at hg
    refine ⟨c, by rw [hc]; exact h0, h1, h3, ?_, readsL_move hc h5 hg.2 fun k c' hk => hm k c' (hk.mono fun x hx => ?_)⟩
    · have := hm r c (.here (List.mem_singleton.2 rfl)) h0 _ h4
      have e : ((s + p' - a : Nat) : Int) = ((s + p - a : Nat) : Int) + p' - p := by omega
      rw [e]; exact this
    · exact .child (.here (List.mem_singleton.2 rfl)) h0 hx
theorem readsL_move {T T' : OTab} {a p p' : Nat} (hc : T'.caps = T.caps) : ∀ {vs : List Capture} {rs : List Ref},
    ReadsL T rs (Capture.shiftL a p vs) → GeL a vs →
    (∀ (k : Nat) (c : CObj), Below T.caps rs k → T.caps[k]? = some c → ∀ s, Placed T c s → Placed T' c (s + p' - p)) →
    ReadsL T' rs (Capture.shiftL a p' vs)
  | [], rs, h, _, _ => by rw [Capture.shiftL, ReadsL] at h ⊢; exact h
  | v :: vs, rs, h, hg, hm => by
    rw [Capture.shiftL, ReadsL] at h ⊢
    obtain ⟨r, rs', rfl, h1, h2⟩ := h
    rw [GeL] at hg
    refine ⟨r, rs', rfl, reads_move hc h1 hg.1 fun k c hk => hm k c (hk.mono fun x hx => .here ?_),
      readsL_move hc h2 hg.2 fun k c hk => hm k c (hk.mono fun x hx => .here (List.mem_cons_of_mem _ hx))⟩
    rw [List.mem_singleton.1 hx]; exact List.mem_cons_self
end

/-- The stored entries: `φ` tells where an entry was stored and with which trees. -/
def EInv (φ : Nat → TEnt) (T : OTab) : Prop :=
  ∀ f ∈ T.flat, ∀ i ∈ f.ins, ∃ x p, T.ents[i.val]? = some x ∧ i.low = (p : Nat) ∧
    (φ i.val).ent.length = x.length ∧ (φ i.val).ent.count = x.count ∧
    ReadsL T x.captures (Capture.shiftL (φ i.val).start p (φ i.val).ent.captures) ∧
    (∀ r ∈ x.captures, Adopted T.caps r) ∧ (p = (φ i.val).start ∨ GeL (φ i.val).start (φ i.val).ent.captures)

/-- The tables stand for the same. -/
structure TSim (b : Bool) (φ : Nat → TEnt) (T : OTab) (T' : TreeTable) : Prop where
  tinv : TInv b T
  older : Older T.caps
  closed : Closed (fun _ => False) T.caps
  threshold : T'.threshold = T.threshold
  map : T'.map = T.map.map φ
  ents : EInv φ T

theorem tsim_new (th : Int) (φ : Nat → TEnt) : TSim false φ { threshold := th } (TreeTable.new th) where
  tinv := tinv_new th
  older := by intro r c h; cases h
  closed := by intro r c h; cases h
  threshold := rfl
  map := rfl
  ents := fun _ h => by cases h

theorem TSim.alloc {b : Bool} {φ : Nat → TEnt} {T : OTab} {T' : TreeTable} (h : TSim b φ T T') {c : CObj} (hm : c.ment = none)
    (hc : ∀ k ∈ c.children, k < T.caps.length) : TSim b φ (T.alloc c).1 T' where
  tinv := ⟨h.tinv.hist, h.tinv.disj, h.tinv.nodup, h.tinv.fresh, h.tinv.gone⟩
  older := by
    intro r x hx
    simp only [OTab.alloc] at hx
    rcases Nat.lt_or_ge r T.caps.length with hl | hl
    · rw [List.getElem?_append_left hl] at hx
      exact h.older r x hx
    · rw [List.getElem?_append_right hl, List.getElem?_singleton] at hx
      split at hx
      · cases hx
        intro k hk
        exact Nat.lt_of_lt_of_le (hc k hk) hl
      · cases hx
  closed := by
    intro r x hx hm'
    simp only [OTab.alloc] at hx
    rcases Nat.lt_or_ge r T.caps.length with hl | hl
    · rw [List.getElem?_append_left hl] at hx
      rcases h.closed r x hx hm' with h' | h'
      · refine .inl fun k hk => ?_
        obtain ⟨y, hy, hy'⟩ := h' k hk
        refine ⟨y, ?_, hy'⟩
        simp only [OTab.alloc]
        rw [List.getElem?_append_left (List.getElem?_eq_some_iff.1 hy).1]
        exact hy
      · exact .inr h'
    · rw [List.getElem?_append_right hl, List.getElem?_singleton] at hx
      split at hx
      · cases hx
        rw [hm] at hm'
        cases hm'
      · cases hx
  threshold := h.threshold
  map := h.map
  ents := by
    intro f hf i hi
    obtain ⟨x, p, h1, h2, h3, h4, h5, h6, h7⟩ := h.ents f hf i hi
    refine ⟨x, p, h1, h2, h3, h4, (ext_alloc T c).readsL h5, ?_, h7⟩
    intro r hr
    obtain ⟨y, hy, hy'⟩ := h6 r hr
    refine ⟨y, ?_, hy'⟩
    simp only [OTab.alloc]
    rw [List.getElem?_append_left (List.getElem?_eq_some_iff.1 hy).1]
    exact hy

/-! ## `Get` -/

theorem ext_get {b : Bool} {T : OTab} (hT : TInv b T) (id : Int) (pos : Nat) : Ext T (T.get id pos).2 :=
  ext_of_holds rfl fun _ _ _ h => h.get hT id pos

theorem TSim.get {b : Bool} {φ : Nat → TEnt} {T : OTab} {T' : TreeTable} (h : TSim b φ T T') (id : Int) (pos : Nat) :
    TSim b φ (T.get id pos).2 (T'.get id pos).2 ∧
    (((T.get id pos).1 = none ∧ (T'.get id pos).1 = none) ∨
      ∃ x m, (T.get id pos).1 = some x ∧ (T'.get id pos).1 = some m ∧ m.length = x.length ∧ m.count = x.count ∧
        ReadsL (T.get id pos).2 x.captures m.captures) := by
  have hmap := Tree.findLargest_map φ T.map id pos
  rw [← h.map] at hmap
  have hE : EInv φ (T.get id pos).2 := by
    intro f hf i hi
    rw [get_flat h.tinv] at hf
    obtain ⟨x, p, h1, h2, h3, h4, h5, h6, h7⟩ := h.ents f hf i hi
    exact ⟨x, p, h1, h2, h3, h4, (ext_get h.tinv id pos).readsL h5, h6, h7⟩
  refine ⟨⟨h.tinv.get id pos, h.older, h.closed, h.threshold, ?_, hE⟩, ?_⟩
  · simp only [TreeTable.get, OTab.get, hmap]
  · cases hk : (T.map.findLargest id pos).2 with
    | none =>
      left
      simp only [TreeTable.get, OTab.get, hmap, hk, Option.map_none, and_self]
    | some k =>
      right
      obtain ⟨f, hf, i, hi, rfl, hlow⟩ := get_mem h.tinv hk
      rw [← get_flat h.tinv id pos] at hf
      obtain ⟨x, p, h1, h2, h3, h4, h5, -⟩ := hE f hf i hi
      have hp : p = pos := by omega
      subst hp
      have h1' : T.ents[i.val]? = some x := h1
      refine ⟨x, (φ i.val).at p, ?_, ?_, h3, h4, h5⟩
      · simp only [OTab.get, hk, Option.map_some, h1', Option.getD_some]
      · simp only [TreeTable.get, hmap, hk, Option.map_some]

/-! ## `Put` -/

theorem Tr.map_congr {α β : Type} {φ ψ : α → β} {S : List Shift} : ∀ {t : Tr α},
    (∀ f ∈ t.flat S, ∀ i ∈ f.ins, φ i.val = ψ i.val) → t.map φ = t.map ψ := by
  intro t
  induction t with
  | nil => intro _; rfl
  | node d l r ihl ihr =>
    intro h
    have hl := ihl fun f hf => h f (List.mem_append_left _ hf)
    have hr := ihr fun f hf => h f (List.mem_append_right _ (List.mem_cons_of_mem _ hf))
    have hd : d.map φ = d.map ψ := by
      have hi : d.ins.map (Ival.map φ) = d.ins.map (Ival.map ψ) := by
        refine List.map_congr_left fun i hi => ?_
        have := h (d.fl S) (List.mem_append_right _ List.mem_cons_self)
          ⟨i.low + (movePosL (S.drop d.t) d.pos - d.pos), i.high + (movePosL (S.drop d.t) d.pos - d.pos), i.val⟩
          (List.mem_map.2 ⟨i, hi, rfl⟩)
        simp only [Ival.map]
        rw [this]
      simp only [Nd.map, hi]
    simp only [Tr.map, hl, hr, hd]

/-- The objects after `setPos`. -/
theorem ext_adopt {T T2 : OTab} {e : Nat} {p hi : Int} (hu : Upd e p T.caps T2.caps) (hh : ∀ A lo hi, Holds T A lo hi → Holds T2 A lo hi)
    (he : Holds T2 e p hi) : Ext T T2 := by
  intro r c h
  obtain ⟨c', h0, h1⟩ := hu.2 r c h
  refine ⟨c', h0, ?_⟩
  rcases h1 with rfl | ⟨h1, rfl⟩
  · refine ⟨rfl, rfl, rfl, rfl, ?_⟩
    intro s hs
    unfold Placed at hs ⊢
    cases hm : c'.ment with
    | none => rw [hm] at hs; exact hs
    | some A =>
      rw [hm] at hs
      obtain ⟨lo, hi, h1, h2⟩ := hs
      exact ⟨lo, hi, hh _ _ _ h1, h2⟩
  · refine ⟨rfl, rfl, rfl, rfl, ?_⟩
    intro s hs
    unfold Placed at hs ⊢
    rw [h1] at hs
    simp only [] at hs ⊢
    exact ⟨p, hi, he, by omega⟩

theorem put_eq {T : OTab} {id : Int} {start : Nat} {length : Option Nat} {examined count : Nat} {captures : List Ref}
    (h : ¬ ((examined : Int) < T.threshold ∨ length = some 0)) :
    T.put id start length examined count captures =
    let T1 := T.added id start (start + (max examined (length.getD 0) : Nat))
      fun a => ⟨length, max examined (length.getD 0), count, captures, a⟩
    { T1 with caps := captures.foldl (OTab.setMEnt T.ents.length
        (T1.posOf (T.map.add id start (start + (max examined (length.getD 0) : Nat)) T.ents.length).2) T1.caps.length) T1.caps } := by
  unfold OTab.put
  rw [if_neg h]
  rfl

theorem TSim.put {b : Bool} {φ : Nat → TEnt} {T : OTab} {T' : TreeTable} (h : TSim b φ T T') (id : Int) (start : Nat)
    (length : Option Nat) (examined count : Nat) {captures : List Ref} {vs : List Capture} (hr : ReadsL T captures vs) :
    ∃ ψ, TSim b ψ (T.put id start length examined count captures) (T'.put id start length examined count vs) ∧
      Ext T (T.put id start length examined count captures) := by
  by_cases hth : (examined : Int) < T.threshold ∨ length = some 0
  · refine ⟨φ, ?_⟩
    rw [OTab.put, if_pos hth, TreeTable.put, h.threshold, if_pos hth]
    exact ⟨h, Ext.refl _⟩
  · rw [put_eq hth, TreeTable.put, h.threshold, if_neg hth]
    simp only []
    generalize max examined (length.getD 0) = ex
    have h0 : (0 : Int) ≤ start := by omega
    have hlh : (start : Int) ≤ start + (ex : Nat) := by omega
    generalize hmk : (fun a => (⟨length, ex, count, captures, a⟩ : EObj)) = mk
    have hmkp : ∀ a, (mk a).pos = a := by intro a; rw [← hmk]
    have t1 := h.tinv.added h0 hlh (id := id) mk
    have hold : ∀ A lo hi, Holds T A lo hi → Holds (T.added id start (start + (ex : Nat)) mk) A lo hi :=
      fun A lo hi hA => hA.added h.tinv h0 hlh mk
    have hnew := holds_added h.tinv h0 hlh (id := id) mk hmkp
    have hflat : ∀ f ∈ (T.added id start (start + (ex : Nat)) mk).flat, ∀ i ∈ f.ins, _ := fun f hf i hi =>
      added_mem h.tinv h0 hlh (id := id) mk hf hi
    have hents : (T.added id start (start + (ex : Nat)) mk).ents =
        T.ents ++ [mk (T.map.add id start (start + (ex : Nat)) T.ents.length).2] := rfl
    have hpos : (T.added id start (start + (ex : Nat)) mk).posOf (T.map.add id start (start + (ex : Nat)) T.ents.length).2 = start := by
      have := hnew.pos t1
      unfold OTab.entPos at this
      rw [hents] at this
      simpa [hmkp] using this
    rw [hpos]
    have hcaps : (T.added id start (start + (ex : Nat)) mk).caps = T.caps := rfl
    have hmap1 : (T.added id start (start + (ex : Nat)) mk).map = (T.map.add id start (start + (ex : Nat)) T.ents.length).1 := rfl
    have hthr : (T.added id start (start + (ex : Nat)) mk).threshold = T.threshold := rfl
    generalize T.added id start (start + (ex : Nat)) mk = T1 at *
    have hu : Upd T.ents.length start T1.caps (captures.foldl (OTab.setMEnt T.ents.length start T1.caps.length) T1.caps) :=
      foldl_upd (fun H r => setMEnt_upd _ _ _ H r) _ _
    have hcl := foldl_closed (e := T.ents.length) (p := start) (g := OTab.setMEnt T.ents.length start T1.caps.length)
      (Q := fun k => k < T1.caps.length) (n := T1.caps.length) (fun H r => setMEnt_upd _ _ _ H r) (P := fun _ => False)
      (fun H' k hn hk ho' hc' => setMEnt_closed _ _ _ _ H' k hk (by rw [hn]; exact hk) ho' hc')
      captures T1.caps rfl (by rw [hcaps]; exact hr.lt) (by rw [hcaps]; exact h.older) (by rw [hcaps]; exact h.closed)
    generalize captures.foldl (OTab.setMEnt T.ents.length start T1.caps.length) T1.caps = H at *
    have hext : Ext T { T1 with caps := H } := by
      refine ext_adopt (e := T.ents.length) (p := start) (hi := start + (ex : Nat)) ?_ hold hnew
      rw [← hcaps]; exact hu
    let φ' : Nat → TEnt := fun k => if k = T.ents.length then ⟨start, ⟨length, ex, count, vs⟩⟩ else φ k
    have hφ : ∀ k, k < T.ents.length → φ' k = φ k := fun k hk => if_neg (by omega)
    have hφn : φ' T.ents.length = ⟨start, ⟨length, ex, count, vs⟩⟩ := if_pos rfl
    have hval : ∀ f ∈ T.flat, ∀ i ∈ f.ins, i.val < T.ents.length := by
      intro f hf i hi
      obtain ⟨x, p, h1, -⟩ := h.ents f hf i hi
      exact (List.getElem?_eq_some_iff.1 h1).1
    refine ⟨φ', ⟨?_, ?_, hcl.1, ?_, ?_, ?_⟩, hext⟩
    · exact ⟨t1.hist, t1.disj, t1.nodup, t1.fresh, t1.gone⟩
    · exact hu.older (by rw [hcaps]; exact h.older)
    · exact hthr.symm
    · show (T'.map.add id start (start + (ex : Nat)) ⟨start, ⟨length, ex, count, vs⟩⟩).1 = T1.map.map φ'
      have : T'.map = T.map.map φ' := by
        rw [h.map]
        simp only [Tree.map]
        rw [Tr.map_congr (S := T.map.shifts) (φ := φ) (ψ := φ')]
        exact fun f hf i hi => (hφ _ (hval f hf i hi)).symm
      rw [this, ← hφn, Tree.add_map, hmap1]
    · intro f hf i hi
      rcases hflat f hf i hi with rfl | ⟨g, hg, hig⟩
      · refine ⟨mk (T.map.add id start (start + (ex : Nat)) T.ents.length).2, start, ?_, rfl, ?_⟩
        · show T1.ents[T.ents.length]? = _
          rw [hents]
          simp
        · simp only [hφn, ← hmk]
          refine ⟨trivial, trivial, ?_, hcl.2, .inl trivial⟩
          rw [Capture.shiftL_self]
          exact hext.readsL hr
      · obtain ⟨x, p, h1, h2, h3, h4, h5, h6, h7⟩ := h.ents g hg i hig
        have hlt := hval g hg i hig
        rw [hφ _ hlt]
        refine ⟨x, p, ?_, h2, h3, h4, hext.readsL h5, ?_, h7⟩
        · show T1.ents[i.val]? = _
          rw [hents, List.getElem?_append_left hlt]
          exact h1
        · intro r hr'
          exact hu.adopted (by rw [hcaps]; exact h6 r hr')

/-! ## `ApplyEdit` -/

theorem TSim.edit {b : Bool} {φ : Nat → TEnt} {T : OTab} {T' : TreeTable} (h : TSim b φ T T') {e : Edit} (he : e.start ≤ e.stop)
    (hb : b = true → e.stop - e.start ≤ e.len) (ht : Tight T e) : TSim true φ (T.applyEdit e) (T'.applyEdit e) := by
  have hcaps : (T.applyEdit e).caps = T.caps := rfl
  have hents : (T.applyEdit e).ents = T.ents := rfl
  refine ⟨h.tinv.edit he hb, h.older, h.closed, h.threshold, ?_, ?_⟩
  · simp only [TreeTable.applyEdit, OTab.applyEdit]
    rw [h.map, Tree.removeAndShift_map]
  · intro f hf i hi
    obtain ⟨g, hg, j, hj, hno, e1, e2, e3⟩ := edit_mem h.tinv he hf hi
    obtain ⟨x, p, h1, h2, h3, h4, h5, h6, h7⟩ := h.ents g hg j hj
    have htt := ht g hg j hj hno x h1
    obtain ⟨p', hp'⟩ : ∃ p' : Nat, toward e (p : Int) = (p' : Nat) := by
      refine ⟨(toward e p).toNat, ?_⟩
      have : (0 : Int) ≤ toward e p := by
        have : (e.stop : Int) ≤ e.high := by unfold Edit.high; split <;> omega
        unfold toward
        split <;> omega
      omega
    have hge : GeL (φ j.val).start (φ j.val).ent.captures := by
      rcases h7 with h7 | h7
      · rw [h7, Capture.shiftL_self] at h5
        refine readsL_ge h.tinv _ h5 fun k c hk hc => ?_
        have := (htt k c hk hc).1
        omega
      · exact h7
    rw [e1]
    refine ⟨x, p', by rw [hents]; exact h1, by rw [e2, h2]; exact hp', h3, h4, ?_, h6, .inr hge⟩
    refine readsL_move hcaps h5 hge fun k c hk hc s hs => ?_
    obtain ⟨-, h8⟩ := htt k c hk hc
    obtain ⟨c', a0, a1⟩ := hk.adopted h.closed h6
    rw [hc] at a0
    cases a0
    unfold Placed at hs ⊢
    cases hm : c.ment with
    | none => rw [hm] at a1; cases a1
    | some A =>
      rw [hm] at hs
      obtain ⟨lo, hi', hh, hs⟩ := hs
      obtain ⟨n1, n2⟩ := h8 A hm lo hi' hh
      refine ⟨_, _, hh.edit h.tinv he n1, ?_⟩
      rw [h2] at n2
      omega

/-! ## Reading -/

mutual
theorem Reads.read {b : Bool} {T : OTab} (hT : TInv b T) (ho : Older T.caps) : ∀ {v : Capture} {r : Ref} {f : Nat}, Reads T r v → r < f →
    read T f r = v
  | .node id s n ch, r, f, h, hf => by
    rw [Reads] at h
    obtain ⟨c, h0, h1, h2, h3, h4, h5⟩ := h
    obtain ⟨f, rfl⟩ : ∃ f', f = f' + 1 := Nat.exists_eq_succ_of_ne_zero (Nat.ne_of_gt (Nat.lt_of_le_of_lt (Nat.zero_le _) hf))
    rw [Obj.read]
    simp only [h0, Option.getD_some, h1, h2, h3, h4.start hT, Bool.false_eq_true, if_false, Int.toNat_natCast]
    rw [ReadsL.read hT ho h5 fun k hk => Nat.lt_of_lt_of_le (ho r c h0 k hk) (Nat.le_of_lt_succ hf)]
  | .dummy s n ch, r, f, h, hf => by
    rw [Reads] at h
    obtain ⟨c, h0, h1, h3, h4, h5⟩ := h
    obtain ⟨f, rfl⟩ : ∃ f', f = f' + 1 := Nat.exists_eq_succ_of_ne_zero (Nat.ne_of_gt (Nat.lt_of_le_of_lt (Nat.zero_le _) hf))
    rw [Obj.read]
    simp only [h0, Option.getD_some, h1, h3, h4.start hT, if_true, Int.toNat_natCast]
    rw [ReadsL.read hT ho h5 fun k hk => Nat.lt_of_lt_of_le (ho r c h0 k hk) (Nat.le_of_lt_succ hf)]
theorem ReadsL.read {b : Bool} {T : OTab} (hT : TInv b T) (ho : Older T.caps) : ∀ {vs : List Capture} {rs : List Ref} {f : Nat}, ReadsL T rs vs →
    (∀ r ∈ rs, r < f) → rs.map (Obj.read T f) = vs
  | [], rs, f, h, _ => by rw [ReadsL] at h; rw [h]; rfl
  | v :: vs, rs, f, h, hf => by
    rw [ReadsL] at h
    obtain ⟨r, rs', rfl, h1, h2⟩ := h
    rw [List.map_cons, Reads.read hT ho h1 (hf r List.mem_cons_self), ReadsL.read hT ho h2 fun k hk => hf k (List.mem_cons_of_mem _ hk)]
end

end Gpeg.Obj
