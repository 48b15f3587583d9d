import Verif.ObjRel
/-!
# Tables whose entries share no captures

When every capture of an entry belongs to that entry, all edits are tight.
-/
namespace Gpeg.Obj
open LazyLog

/-- All intervals of nodes, in the tree or not, are as long as the entries looked ahead. -/
def LenOK (T : OTab) (L : List (Fl Nat)) : Prop :=
  ∀ f ∈ L, ∀ i ∈ f.ins, ∃ x, T.ents[i.val]? = some x ∧ i.high - i.low = x.examined

/-- Every entry in the tree is at its node, and its captures belong to it and do not start before it. -/
structure Own (T : OTab) : Prop where
  own : ∀ f ∈ T.flat, ∀ i ∈ f.ins, Holds T i.val i.low i.high ∧ ∀ x, T.ents[i.val]? = some x →
    ∀ r, Below T.caps x.captures r → ∃ c, T.caps[r]? = some c ∧ c.ment = some i.val ∧ 0 ≤ c.off
  len : LenOK T T.flat
  lenAway : LenOK T T.away

theorem Own.tight {b : Bool} {T : OTab} (h : Own T) (hT : TInv b T) (e : Edit) : Tight T e := by
  intro f hf i hi hno x hx r c hr hc
  obtain ⟨h1, h2⟩ := h.own f hf i hi
  obtain ⟨c', hc', hm, ho⟩ := h2 x hx r hr
  rw [hc] at hc'
  cases hc'
  have hp := h1.pos hT
  refine ⟨?_, ?_⟩
  · unfold OTab.start
    rw [hm]
    simp only [hp]
    omega
  · intro A hA lo hi' hh
    rw [hm] at hA
    cases hA
    have hp' := hh.pos hT
    have hlo : lo = i.low := by rw [← hp', hp]
    subst hlo
    have hhi : hi' = i.high := by
      obtain ⟨y, g, hy, hg, -, hj⟩ := hh
      obtain ⟨x1, e1, e2⟩ := h.len f hf i hi
      have : ∃ x2, T.ents[i.val]? = some x2 ∧ hi' - i.low = x2.examined := by
        rcases hg with hg | hg
        · exact h.len g hg _ hj
        · exact h.lenAway g hg _ hj
      obtain ⟨x2, e3, e4⟩ := this
      rw [e1] at e3
      cases e3
      omega
    subst hhi
    exact ⟨hno, rfl⟩

theorem own_new (th : Int) : Own { threshold := th } :=
  ⟨fun _ h => (by cases h), fun _ h => (by cases h), fun _ h => (by cases h)⟩

theorem Own.get {b : Bool} {T : OTab} (h : Own T) (hT : TInv b T) (id : Int) (pos : Nat) : Own (T.get id pos).2 where
  own f hf i hi := by
    rw [get_flat hT] at hf
    obtain ⟨h1, h2⟩ := h.own f hf i hi
    exact ⟨h1.get hT id pos, h2⟩
  len f hf i hi := by
    rw [get_flat hT] at hf
    exact h.len f hf i hi
  lenAway := h.lenAway

/-- All objects below these exist and satisfy `P`. -/
def AllBelow (P : CObj → Prop) (H : List CObj) (rs : List Ref) : Prop := ∀ r, Below H rs r → ∃ c, H[r]? = some c ∧ P c

theorem AllBelow.alloc {P : CObj → Prop} {H : List CObj} {rs : List Ref} (h : AllBelow P H rs) (x : CObj) : AllBelow P (H ++ [x]) rs := by
  have hb : ∀ r, Below (H ++ [x]) rs r → Below H rs r := by
    intro r hr
    induction hr with
    | here hr => exact .here hr
    | child _ hc hk ih =>
      obtain ⟨c', hc', -⟩ := h _ ih
      rw [List.getElem?_append_left (List.getElem?_eq_some_iff.1 hc').1, hc'] at hc
      cases hc
      exact .child ih hc' hk
  intro r hr
  obtain ⟨c, hc, hp⟩ := h r (hb r hr)
  exact ⟨c, by rw [List.getElem?_append_left (List.getElem?_eq_some_iff.1 hc).1]; exact hc, hp⟩

theorem AllBelow.append {P : CObj → Prop} {H : List CObj} {rs rs' : List Ref} (h : AllBelow P H rs) (h' : AllBelow P H rs') :
    AllBelow P H (rs ++ rs') := by
  intro r hr
  have : Below H rs r ∨ Below H rs' r := by
    induction hr with
    | here hr =>
      rcases List.mem_append.1 hr with hr | hr
      · exact .inl (.here hr)
      · exact .inr (.here hr)
    | child _ hc hk ih => exact ih.imp (.child · hc hk) (.child · hc hk)
  exact this.elim (h r) (h' r)

theorem AllBelow.nil {P : CObj → Prop} {H : List CObj} : AllBelow P H [] := by
  intro r hr
  have : False := by
    induction hr with
    | here hr => cases hr
    | child _ _ _ ih => exact ih
  exact this.elim

/-- A new object above these. -/
theorem AllBelow.new {P : CObj → Prop} {H : List CObj} {x : CObj} (h : AllBelow P H x.children) (hp : P x) :
    AllBelow P (H ++ [x]) [H.length] := by
  have h' := h.alloc x
  have : ∀ r, Below (H ++ [x]) [H.length] r → r = H.length ∨ Below (H ++ [x]) x.children r := by
    intro r hr
    induction hr with
    | here hr => exact .inl (List.mem_singleton.1 hr)
    | child _ hc hk ih =>
      rcases ih with rfl | ih
      · rw [List.getElem?_append_right (Nat.le_refl _)] at hc
        simp only [Nat.sub_self, List.getElem?_cons_zero, Option.some.injEq] at hc
        subst hc
        exact .inr (.here hk)
      · exact .inr (.child ih hc hk)
  intro r hr
  rcases this r hr with rfl | hr
  · exact ⟨x, by simp, hp⟩
  · exact h' r hr

theorem below_upd {e : Nat} {p : Int} {H H' : List CObj} (h : Upd e p H H') {rs : List Ref} {r : Ref} (hr : Below H' rs r) : Below H rs r := by
  induction hr with
  | here hr => exact .here hr
  | child _ hc hk ih =>
    obtain ⟨c0, h0, h1⟩ := h.back hc
    refine .child ih h0 ?_
    rcases h1 with rfl | ⟨-, rfl⟩ <;> exact hk

theorem Own.alloc {T : OTab} (h : Own T) (c : CObj) : Own (T.alloc c).1 where
  own f hf i hi := by
    obtain ⟨h1, h2⟩ := h.own f hf i hi
    refine ⟨h1, fun x hx => ?_⟩
    exact AllBelow.alloc (P := fun c => c.ment = some i.val ∧ 0 ≤ c.off) (h2 x hx) c
  len := h.len
  lenAway := h.lenAway

/-- Captures that belong to no entry and do not start before `p`. -/
def Fresh (T : OTab) (p : Nat) (rs : List Ref) : Prop := AllBelow (fun c => c.ment = none ∧ (p : Int) ≤ c.off) T.caps rs

theorem Own.put {b : Bool} {φ : Nat → TEnt} {T : OTab} {T' : TreeTable} (h : TSim b φ T T') (ho : Own T) (id : Int) (start : Nat)
    (length : Option Nat) (examined count : Nat) {captures : List Ref} (hf : Fresh T start captures) :
    Own (T.put id start length examined count captures) := by
  by_cases hth : (examined : Int) < T.threshold ∨ length = some 0
  · rw [OTab.put, if_pos hth]
    exact ho
  · rw [put_eq hth]
    simp only []
    generalize max examined (length.getD 0) = ex
    have h0 : (0 : Int) ≤ start := by omega
    have hlh : (start : Int) ≤ start + (ex : Nat) := by omega
    generalize hmk : (fun a => (⟨length, ex, count, captures, a⟩ : EObj)) = mk
    have hmkp : ∀ a, (mk a).pos = a := by intro a; rw [← hmk]
    have t1 := h.tinv.added h0 hlh (id := id) mk
    have hold : ∀ A lo hi, Holds T A lo hi → Holds (T.added id start (start + (ex : Nat)) mk) A lo hi :=
      fun A lo hi hA => hA.added h.tinv h0 hlh mk
    have hnew := holds_added h.tinv h0 hlh (id := id) mk hmkp
    have hflat : ∀ f ∈ (T.added id start (start + (ex : Nat)) mk).flat, ∀ i ∈ f.ins, _ := fun f hf i hi =>
      added_mem h.tinv h0 hlh (id := id) mk hf hi
    have haway : (T.added id start (start + (ex : Nat)) mk).away = T.away := rfl
    have hents : (T.added id start (start + (ex : Nat)) mk).ents =
        T.ents ++ [mk (T.map.add id start (start + (ex : Nat)) T.ents.length).2] := rfl
    have hpos : (T.added id start (start + (ex : Nat)) mk).posOf (T.map.add id start (start + (ex : Nat)) T.ents.length).2 = start := by
      have := hnew.pos t1
      unfold OTab.entPos at this
      rw [hents] at this
      simpa [hmkp] using this
    rw [hpos]
    have hcaps : (T.added id start (start + (ex : Nat)) mk).caps = T.caps := rfl
    generalize T.added id start (start + (ex : Nat)) mk = T1 at *
    have hlt : ∀ r ∈ captures, r < T.caps.length := by
      intro r hr
      obtain ⟨c, hc, -⟩ := hf r (.here hr)
      exact (List.getElem?_eq_some_iff.1 hc).1
    have hu : Upd T.ents.length start T1.caps (captures.foldl (OTab.setMEnt T.ents.length start T1.caps.length) T1.caps) :=
      foldl_upd (fun H r => setMEnt_upd _ _ _ H r) _ _
    have hcl := foldl_closed (e := T.ents.length) (p := start) (g := OTab.setMEnt T.ents.length start T1.caps.length)
      (Q := fun k => k < T1.caps.length) (n := T1.caps.length) (fun H r => setMEnt_upd _ _ _ H r) (P := fun _ => False)
      (fun H' k hn hk ho' hc' => setMEnt_closed _ _ _ _ H' k hk (by rw [hn]; exact hk) ho' hc')
      captures T1.caps rfl (by rw [hcaps]; exact hlt) (by rw [hcaps]; exact h.older) (by rw [hcaps]; exact h.closed)
    generalize captures.foldl (OTab.setMEnt T.ents.length start T1.caps.length) T1.caps = H at *
    rw [hcaps] at hu
    have hlen : LenOK T1 T.flat ∧ LenOK T1 T.away := by
      refine ⟨fun f hf i hi => ?_, fun f hf i hi => ?_⟩
      · obtain ⟨x, e1, e2⟩ := ho.len f hf i hi
        exact ⟨x, by rw [hents, List.getElem?_append_left (List.getElem?_eq_some_iff.1 e1).1]; exact e1, e2⟩
      · obtain ⟨x, e1, e2⟩ := ho.lenAway f hf i hi
        exact ⟨x, by rw [hents, List.getElem?_append_left (List.getElem?_eq_some_iff.1 e1).1]; exact e1, e2⟩
    have hn : T1.ents[T.ents.length]? = some (mk (T.map.add id start (start + (ex : Nat)) T.ents.length).2) := by
      rw [hents]; simp
    refine ⟨?_, ?_, ?_⟩
    · intro f hff i hi
      rcases hflat f hff i hi with rfl | ⟨g, hg, hig⟩
      · refine ⟨hnew, fun x hx r hr => ?_⟩
        have hx : T1.ents[T.ents.length]? = some x := hx
        rw [hn] at hx
        cases hx
        rw [← hmk] at hr
        simp only [] at hr
        obtain ⟨c', hc', ha⟩ := hr.adopted hcl.1 hcl.2
        obtain ⟨c, hc, hcc⟩ := hu.back hc'
        obtain ⟨c1, hc1, hm, hp⟩ := hf r (below_upd hu hr)
        rw [hc] at hc1
        cases hc1
        refine ⟨c', hc', ?_⟩
        rcases hcc with rfl | ⟨-, rfl⟩
        · rw [hm] at ha; cases ha
        · exact ⟨rfl, by simp only []; omega⟩
      · obtain ⟨h1, h2⟩ := ho.own g hg i hig
        refine ⟨hold _ _ _ h1, fun x hx r hr => ?_⟩
        obtain ⟨x0, hx0, -⟩ := ho.len g hg i hig
        have hx : T1.ents[i.val]? = some x := hx
        rw [hents, List.getElem?_append_left (List.getElem?_eq_some_iff.1 hx0).1] at hx
        obtain ⟨c, hc, hm, hp⟩ := h2 x hx r (below_upd hu hr)
        obtain ⟨c', hc', hcc⟩ := hu.2 r c hc
        refine ⟨c', hc', ?_⟩
        rcases hcc with rfl | ⟨hnone, -⟩
        · exact ⟨hm, hp⟩
        · rw [hm] at hnone; cases hnone
    · intro f hff i hi
      rcases hflat f hff i hi with rfl | ⟨g, hg, hig⟩
      · refine ⟨_, hn, ?_⟩
        rw [← hmk]
        simp only []
        omega
      · exact hlen.1 g hg i hig
    · intro f hff i hi
      have hff : f ∈ T1.away := hff
      rw [haway] at hff
      exact hlen.2 f hff i hi

theorem lenOK_move {T T2 : OTab} (he : T2.ents = T.ents) {s : Shift} {f : Fl Nat} (h : ∀ i ∈ f.ins, ∃ x, T.ents[i.val]? = some x ∧ i.high - i.low = x.examined) :
    ∀ i ∈ (f.move s).ins, ∃ x, T2.ents[i.val]? = some x ∧ i.high - i.low = x.examined := by
  intro i hi
  obtain ⟨j, hj, e1, e2, e3⟩ := mem_shiftIns hi
  obtain ⟨x, hx, hl⟩ := h j hj
  exact ⟨x, by rw [he, e3]; exact hx, by omega⟩

theorem Own.edit {b : Bool} {T : OTab} (h : Own T) (hT : TInv b T) {e : Edit} (he : e.start ≤ e.stop) : Own (T.applyEdit e) := by
  obtain ⟨live, hh⟩ := hT.hist
  obtain ⟨s, -, -, g1, g2, g3, g4, g5⟩ := edit_flat hT (e := e)
  have hmap : (T.applyEdit e).map = T.map.removeAndShift e.start e.high (e.len - ((e.stop : Int) - e.start)) := by rw [edit_eq]
  have hgone : (T.applyEdit e).gone = T.gone ++ (nodes T.map.root).filter fun d =>
      !(nodes (T.applyEdit e).map.root).any fun d' => d'.addr == d.addr := by rw [hmap, edit_eq]
  have hents : (T.applyEdit e).ents = T.ents := rfl
  have hcaps : (T.applyEdit e).caps = T.caps := rfl
  have hown := nodes_own hh.inv
  refine ⟨?_, ?_, ?_⟩
  · intro f hf i hi
    obtain ⟨g, hg, j, hj, hno, e1, e2, e3⟩ := edit_mem hT he hf hi
    obtain ⟨h1, h2⟩ := h.own g hg j hj
    rw [e1, e2, e3, hents, hcaps]
    exact ⟨h1.edit hT he hno, h2⟩
  · intro f hf i hi
    obtain ⟨g, hg, j, hj, hno, e1, e2, e3⟩ := edit_mem hT he hf hi
    obtain ⟨x, hx, hl⟩ := h.len g hg j hj
    exact ⟨x, by rw [hents, e1]; exact hx, by omega⟩
  · intro f hf
    unfold OTab.away at hf
    obtain ⟨d, hd, rfl⟩ := List.mem_map.1 hf
    rw [hgone, List.mem_append, List.mem_filter] at hd
    rcases hd with hd | ⟨hd, -⟩
    · rw [g2 d (hT.gone d hd).2.2]
      exact lenOK_move hents (h.lenAway _ (List.mem_map_of_mem hd))
    · rw [g2 d (hown d hd).time]
      refine lenOK_move hents (h.len _ ?_)
      unfold OTab.flat
      rw [← nodes_flat]
      exact List.mem_map_of_mem hd

end Gpeg.Obj
