import Verif.ObjTab
import Verif.LazyLogMap
/-! # The table with capture objects and the table with capture trees -/
namespace Gpeg.Obj
open LazyLog

/-! ## Reading -/

/-- The object is at `s`: it belongs to no entry and has this position, or it belongs to an entry that holds its interval. -/
def Placed (T : OTab) (c : CObj) (s : Int) : Prop :=
  match c.ment with
  | none => c.off = s
  | some A => ∃ lo hi, Holds T A lo hi ∧ lo + c.off = s

theorem Placed.start {b : Bool} {T : OTab} (hT : TInv b T) {c : CObj} {s : Int} (h : Placed T c s) : T.start c = s := by
  unfold Placed at h
  unfold OTab.start
  cases hm : c.ment with
  | none => rw [hm] at h; exact h
  | some A =>
    rw [hm] at h
    obtain ⟨lo, hi, h1, h2⟩ := h
    simp only []
    rw [h1.pos hT]
    exact h2

mutual
/-- The tree below the object is `v`. -/
def Reads (T : OTab) (r : Ref) : Capture → Prop
  | .node id s n ch => ∃ c, T.caps[r]? = some c ∧ c.dummy = false ∧ c.id = id ∧ c.len = n ∧ Placed T c s ∧ ReadsL T c.children ch
  | .dummy s n ch => ∃ c, T.caps[r]? = some c ∧ c.dummy = true ∧ c.len = n ∧ Placed T c s ∧ ReadsL T c.children ch
/-- `Reads` for all elements. -/
def ReadsL (T : OTab) (rs : List Ref) : List Capture → Prop
  | [] => rs = []
  | v :: vs => ∃ r rs', rs = r :: rs' ∧ Reads T r v ∧ ReadsL T rs' vs
end

theorem ReadsL.nil {T : OTab} : ReadsL T [] [] := by simp [ReadsL]

theorem ReadsL.length {T : OTab} {vs : List Capture} : ∀ {rs : List Ref}, ReadsL T rs vs → rs.length = vs.length := by
  induction vs with
  | nil => intro rs h; rw [ReadsL] at h; rw [h]; rfl
  | cons v vs ih =>
    intro rs h
    rw [ReadsL] at h
    obtain ⟨r, rs', rfl, -, h2⟩ := h
    simp [ih h2]

theorem ReadsL.append {T : OTab} {vs vs' : List Capture} {rs' : List Ref} (h' : ReadsL T rs' vs') :
    ∀ {rs : List Ref}, ReadsL T rs vs → ReadsL T (rs ++ rs') (vs ++ vs') := by
  induction vs with
  | nil => intro rs h; rw [ReadsL] at h; rw [h]; exact h'
  | cons v vs ih =>
    intro rs h
    rw [ReadsL] at h
    obtain ⟨r, rs', rfl, h1, h2⟩ := h
    rw [List.cons_append, List.cons_append, ReadsL]
    exact ⟨r, _, rfl, h1, ih h2⟩

theorem ReadsL.single {T : OTab} {r : Ref} {v : Capture} (h : Reads T r v) : ReadsL T [r] [v] := by
  rw [ReadsL]; exact ⟨r, [], rfl, h, .nil⟩

theorem Reads.lt {T : OTab} {r : Ref} {v : Capture} (h : Reads T r v) : r < T.caps.length := by
  cases v <;> rw [Reads] at h <;> obtain ⟨c, hc, -⟩ := h <;> exact (List.getElem?_eq_some_iff.1 hc).1

theorem ReadsL.lt {T : OTab} {vs : List Capture} : ∀ {rs : List Ref}, ReadsL T rs vs → ∀ r ∈ rs, r < T.caps.length := by
  induction vs with
  | nil => intro rs h; rw [ReadsL] at h; subst h; exact fun _ h => by cases h
  | cons v vs ih =>
    intro rs h
    rw [ReadsL] at h
    obtain ⟨r, rs', rfl, h1, h2⟩ := h
    intro x hx
    rcases List.mem_cons.1 hx with rfl | hx
    · exact h1.lt
    · exact ih h2 x hx

/-- The objects of `T` are in `T2`, at the same places. -/
def Ext (T T2 : OTab) : Prop :=
  ∀ (r : Nat) (c : CObj), T.caps[r]? = some c → ∃ c', T2.caps[r]? = some c' ∧ c'.id = c.id ∧ c'.dummy = c.dummy ∧ c'.len = c.len ∧
    c'.children = c.children ∧ ∀ s, Placed T c s → Placed T2 c' s

theorem Ext.refl (T : OTab) : Ext T T := fun _ c h => ⟨c, h, rfl, rfl, rfl, rfl, fun _ h => h⟩

theorem Ext.trans {T1 T2 T3 : OTab} (h : Ext T1 T2) (h' : Ext T2 T3) : Ext T1 T3 := by
  intro r c hc
  obtain ⟨c1, a0, a1, a2, a3, a4, a5⟩ := h r c hc
  obtain ⟨c2, b0, b1, b2, b3, b4, b5⟩ := h' r c1 a0
  exact ⟨c2, b0, b1.trans a1, b2.trans a2, b3.trans a3, b4.trans a4, fun s hs => b5 s (a5 s hs)⟩

mutual
theorem Ext.reads {T T2 : OTab} (h : Ext T T2) : ∀ {v : Capture} {r : Ref}, Reads T r v → Reads T2 r v
  | .node id s n ch, r, hr => by
    rw [Reads] at hr ⊢
    obtain ⟨c, h0, h1, h2, h3, h4, h5⟩ := hr
    obtain ⟨c', a0, a1, a2, a3, a4, a5⟩ := h r c h0
    exact ⟨c', a0, a2.trans h1, a1.trans h2, a3.trans h3, a5 _ h4, by rw [a4]; exact Ext.readsL h h5⟩
  | .dummy s n ch, r, hr => by
    rw [Reads] at hr ⊢
    obtain ⟨c, h0, h1, h3, h4, h5⟩ := hr
    obtain ⟨c', a0, a1, a2, a3, a4, a5⟩ := h r c h0
    exact ⟨c', a0, a2.trans h1, a3.trans h3, a5 _ h4, by rw [a4]; exact Ext.readsL h h5⟩
theorem Ext.readsL {T T2 : OTab} (h : Ext T T2) : ∀ {vs : List Capture} {rs : List Ref}, ReadsL T rs vs → ReadsL T2 rs vs
  | [], rs, hr => by rw [ReadsL] at hr ⊢; exact hr
  | v :: vs, rs, hr => by
    rw [ReadsL] at hr ⊢
    obtain ⟨r, rs', e, h1, h2⟩ := hr
    exact ⟨r, rs', e, Ext.reads h h1, Ext.readsL h h2⟩
end

theorem ext_of_holds {T T2 : OTab} (hc : T2.caps = T.caps) (hh : ∀ A lo hi, Holds T A lo hi → Holds T2 A lo hi) : Ext T T2 := by
  intro r c h
  refine ⟨c, by rw [hc]; exact h, rfl, rfl, rfl, rfl, ?_⟩
  intro s hs
  unfold Placed at hs ⊢
  cases hm : c.ment with
  | none => rw [hm] at hs; exact hs
  | some A =>
    rw [hm] at hs
    obtain ⟨lo, hi, h1, h2⟩ := hs
    exact ⟨lo, hi, hh _ _ _ h1, h2⟩

/-! ## New objects -/

theorem holds_alloc {T : OTab} {c : CObj} {A : Nat} {lo hi : Int} : Holds (T.alloc c).1 A lo hi ↔ Holds T A lo hi := Iff.rfl

theorem ext_alloc (T : OTab) (c : CObj) : Ext T (T.alloc c).1 := by
  intro r x hx
  refine ⟨x, ?_, rfl, rfl, rfl, rfl, fun s hs => ?_⟩
  · simp only [OTab.alloc]
    rw [List.getElem?_append_left (List.getElem?_eq_some_iff.1 hx).1]
    exact hx
  · exact hs

theorem reads_newNode {T : OTab} {id : Int} {s n : Nat} {rs : List Ref} {vs : List Capture} (h : ReadsL T rs vs) :
    Reads (T.newNode id s n rs).1 (T.newNode id s n rs).2 (.node id s n vs) := by
  rw [Reads]
  exact ⟨⟨id, false, s, n, none, rs⟩, by simp [OTab.newNode, OTab.alloc], rfl, rfl, rfl, rfl, (ext_alloc T _).readsL h⟩

theorem reads_newDummy {T : OTab} {s n : Nat} {rs : List Ref} {vs : List Capture} (h : ReadsL T rs vs) :
    Reads (T.newDummy s n rs).1 (T.newDummy s n rs).2 (.dummy s n vs) := by
  rw [Reads]
  exact ⟨⟨0, true, s, n, none, rs⟩, by simp [OTab.newDummy, OTab.alloc], rfl, rfl, rfl, (ext_alloc T _).readsL h⟩

/-! ## `setMEnt` -/

/-- Some objects without entry have become objects of the entry `e` at `p`. -/
def Upd (e : Nat) (p : Int) (H H' : List CObj) : Prop :=
  H'.length = H.length ∧ ∀ (r : Nat) (c : CObj), H[r]? = some c → ∃ c', H'[r]? = some c' ∧
    (c' = c ∨ (c.ment = none ∧ c' = { c with ment := some e, off := c.off - p }))

theorem Upd.refl (e : Nat) (p : Int) (H : List CObj) : Upd e p H H := ⟨rfl, fun _ c h => ⟨c, h, .inl rfl⟩⟩

theorem Upd.trans {e : Nat} {p : Int} {H1 H2 H3 : List CObj} (h : Upd e p H1 H2) (h' : Upd e p H2 H3) : Upd e p H1 H3 := by
  refine ⟨h'.1.trans h.1, fun r c hc => ?_⟩
  obtain ⟨c1, a0, a1⟩ := h.2 r c hc
  obtain ⟨c2, b0, b1⟩ := h'.2 r c1 a0
  refine ⟨c2, b0, ?_⟩
  rcases a1 with rfl | ⟨a1, rfl⟩
  · exact b1
  · rcases b1 with rfl | ⟨b1, -⟩
    · exact .inr ⟨a1, rfl⟩
    · cases b1

theorem upd_set {e : Nat} {p : Int} {H : List CObj} {r : Ref} {c : CObj} (hc : H[r]? = some c) (hm : c.ment = none) :
    Upd e p H (H.set r { c with ment := some e, off := c.off - p }) := by
  refine ⟨by simp, fun k x hx => ?_⟩
  by_cases hk : k = r
  · subst hk
    rw [hc] at hx
    cases hx
    exact ⟨_, by rw [List.getElem?_set_self (List.getElem?_eq_some_iff.1 hc).1], .inr ⟨hm, rfl⟩⟩
  · exact ⟨x, by rw [List.getElem?_set_ne (fun h => hk h.symm)]; exact hx, .inl rfl⟩

/-- The object belongs to an entry. -/
def Adopted (H : List CObj) (r : Ref) : Prop := ∃ c, H[r]? = some c ∧ c.ment.isSome = true

theorem Upd.adopted {e : Nat} {p : Int} {H H' : List CObj} (h : Upd e p H H') {r : Ref} (hr : Adopted H r) : Adopted H' r := by
  obtain ⟨c, h0, h1⟩ := hr
  obtain ⟨c', a0, a1⟩ := h.2 r c h0
  refine ⟨c', a0, ?_⟩
  rcases a1 with rfl | ⟨-, rfl⟩
  · exact h1
  · rfl

/-- Children were made before their parents. -/
def Older (H : List CObj) : Prop := ∀ (r : Nat) (c : CObj), H[r]? = some c → ∀ k ∈ c.children, k < r

/-- The children of an object that belongs to an entry do so too, except for the objects `P`. -/
def Closed (P : Ref → Prop) (H : List CObj) : Prop :=
  ∀ (r : Nat) (c : CObj), H[r]? = some c → c.ment.isSome = true → (∀ k ∈ c.children, Adopted H k) ∨ P r

theorem Upd.back {e : Nat} {p : Int} {H H' : List CObj} (h : Upd e p H H') {r : Ref} {c' : CObj} (hr : H'[r]? = some c') :
    ∃ c, H[r]? = some c ∧ (c' = c ∨ (c.ment = none ∧ c' = { c with ment := some e, off := c.off - p })) := by
  have hlt := (List.getElem?_eq_some_iff.1 hr).1
  rw [h.1] at hlt
  obtain ⟨c1, a0, a1⟩ := h.2 r _ (List.getElem?_eq_getElem hlt)
  rw [hr] at a0
  cases a0
  exact ⟨_, List.getElem?_eq_getElem hlt, a1⟩

theorem Upd.older {e : Nat} {p : Int} {H H' : List CObj} (h : Upd e p H H') (ho : Older H) : Older H' := by
  intro r c' hc k hk
  obtain ⟨c, h0, h1⟩ := h.back hc
  refine ho r c h0 k ?_
  rcases h1 with rfl | ⟨-, rfl⟩ <;> exact hk

theorem foldl_upd {e : Nat} {p : Int} {g : List CObj → Ref → List CObj} (hg : ∀ H r, Upd e p H (g H r)) :
    ∀ (rs : List Ref) (H : List CObj), Upd e p H (rs.foldl g H) := by
  intro rs
  induction rs with
  | nil => intro H; exact .refl _ _ _
  | cons r rs ih => intro H; exact (hg H r).trans (ih _)

theorem setMEnt_upd (e : Nat) (p : Int) : ∀ (f : Nat) (H : List CObj) (r : Ref), Upd e p H (OTab.setMEnt e p f H r) := by
  intro f
  induction f with
  | zero => intro H r; exact .refl _ _ _
  | succ f ih =>
    intro H r
    rw [OTab.setMEnt]
    split
    · exact .refl _ _ _
    · rename_i hm
      cases hc : H[r]? with
      | none =>
        have : H.set r { (default : CObj) with ment := some e, off := (default : CObj).off - p } = H := by
          rw [List.set_eq_of_length_le]
          exact List.getElem?_eq_none_iff.1 hc
        simp only [Option.getD_none]
        rw [this]
        exact .refl _ _ _
      | some c =>
        rw [hc] at hm
        simp only [Option.getD_some] at hm ⊢
        refine (upd_set hc ?_).trans (foldl_upd (fun H r => ih H r) _ _)
        cases hmm : c.ment with
        | none => rfl
        | some _ => rw [hmm] at hm; exact absurd rfl hm

theorem foldl_closed {e : Nat} {p : Int} {g : List CObj → Ref → List CObj} {Q : Ref → Prop} (hg : ∀ H r, Upd e p H (g H r))
    {P : Ref → Prop} {n : Nat}
    (hc : ∀ H r, H.length = n → Q r → Older H → Closed P H → Closed P (g H r) ∧ Adopted (g H r) r) :
    ∀ (rs : List Ref) (H : List CObj), H.length = n → (∀ r ∈ rs, Q r) → Older H → Closed P H →
      Closed P (rs.foldl g H) ∧ ∀ r ∈ rs, Adopted (rs.foldl g H) r := by
  intro rs
  induction rs with
  | nil => intro H _ _ _ h; exact ⟨h, fun _ h => by cases h⟩
  | cons r rs ih =>
    intro H hn hq ho h
    obtain ⟨h1, h2⟩ := hc H r hn (hq r List.mem_cons_self) ho h
    obtain ⟨h3, h4⟩ := ih (g H r) ((hg H r).1.trans hn) (fun x hx => hq x (List.mem_cons_of_mem _ hx)) ((hg H r).older ho) h1
    refine ⟨h3, fun x hx => ?_⟩
    rcases List.mem_cons.1 hx with rfl | hx
    · exact (foldl_upd hg rs _).adopted h2
    · exact h4 x hx

theorem setMEnt_closed (e : Nat) (p : Int) : ∀ (f : Nat) (P : Ref → Prop) (H : List CObj) (r : Ref), r < f → r < H.length → Older H →
    Closed P H → Closed P (OTab.setMEnt e p f H r) ∧ Adopted (OTab.setMEnt e p f H r) r := by
  intro f
  induction f with
  | zero => intro P H r h; exact absurd h (Nat.not_lt_zero _)
  | succ f ih =>
    intro P H r hf hl ho hc
    rw [OTab.setMEnt]
    have hg : H[r]? = some H[r] := List.getElem?_eq_getElem hl
    rw [hg, Option.getD_some]
    generalize hcc : H[r] = c at *
    by_cases hm : c.ment.isSome = true
    · rw [if_pos hm]
      exact ⟨hc, c, hg, hm⟩
    · rw [if_neg hm]
      have hnone : c.ment = none := by
        cases h : c.ment with
        | none => rfl
        | some _ => rw [h] at hm; exact absurd rfl hm
      have hu := upd_set (e := e) (p := p) hg hnone
      have hself : (H.set r { c with ment := some e, off := c.off - p })[r]? = some { c with ment := some e, off := c.off - p } :=
        List.getElem?_set_self hl
      have hne : ∀ x, x ≠ r → (H.set r { c with ment := some e, off := c.off - p })[x]? = H[x]? := fun x hx =>
        List.getElem?_set_ne fun h => hx h.symm
      generalize H.set r { c with ment := some e, off := c.off - p } = H1 at *
      have hc1 : Closed (fun x => P x ∨ x = r) H1 := by
        intro x c' hx hm'
        by_cases hxr : x = r
        · exact .inr (.inr hxr)
        · rw [hne x hxr] at hx
          rcases hc x c' hx hm' with h | h
          · exact .inl fun k hk => hu.adopted (h k hk)
          · exact .inr (.inl h)
      obtain ⟨k1, k2⟩ := foldl_closed (e := e) (p := p) (g := OTab.setMEnt e p f) (Q := fun k => k < r) (n := H1.length)
        (fun H r => setMEnt_upd e p f H r) (P := fun x => P x ∨ x = r)
        (fun H' k hn (hk : k < r) ho' hc' => ih _ H' k (Nat.lt_of_lt_of_le hk (Nat.le_of_lt_succ hf))
          (by rw [hn, hu.1]; exact Nat.lt_trans hk hl) ho' hc')
        c.children H1 rfl (fun k hk => ho r c hg k hk) (hu.older ho) hc1
      have hu2 := foldl_upd (fun H r => setMEnt_upd e p f H r) c.children H1
      refine ⟨?_, hu2.adopted ⟨_, hself, rfl⟩⟩
      intro x c' hx hm'
      rcases k1 x c' hx hm' with h | h | h
      · exact .inl h
      · exact .inr h
      · subst h
        obtain ⟨c0, a0, a1⟩ := hu2.back hx
        rw [hself] at a0
        cases a0
        refine .inl fun k hk => k2 k ?_
        rcases a1 with rfl | ⟨a1, -⟩
        · exact hk
        · cases a1

end Gpeg.Obj
