import Verif.LazyInv
/-! # The interval tree of `memo/interval/lazy`: the operations -/
namespace Gpeg.Lazy
variable {α : Type}

theorem compareKey_lt {p i p' i' : Int} (h : compareKey p i p' i' = .lt) : klt (p, i) (p', i') := by
  unfold compareKey at h; unfold klt; simp only []
  split at h
  · omega
  · split at h
    · cases h
    · split at h
      · omega
      · split at h <;> cases h

theorem compareKey_gt {p i p' i' : Int} (h : compareKey p i p' i' = .gt) : klt (p', i') (p, i) := by
  unfold compareKey at h; unfold klt; simp only []
  split at h
  · cases h
  · split at h
    · omega
    · split at h
      · cases h
      · split at h
        · omega
        · cases h

theorem compareKey_eq {p i p' i' : Int} (h : compareKey p i p' i' = .eq) : p = p' ∧ i = i' := by
  unfold compareKey at h
  split at h
  · cases h
  · split at h
    · cases h
    · split at h
      · cases h
      · split at h
        · cases h
        · omega

theorem klt_irrefl (a : Int × Int) : ¬ klt a a := by unfold klt; omega

theorem Sorted.left_lt {L M : List (Fl α)} {f : Fl α} (h : Sorted (L ++ f :: M)) {g : Fl α} (hg : g ∈ L) :
    klt g.key f.key := by
  unfold Sorted at h
  rw [List.map_append, List.pairwise_append] at h
  exact h.2.2 _ (List.mem_map_of_mem hg) _ (by simp)

theorem Sorted.right_gt {L M : List (Fl α)} {f : Fl α} (h : Sorted (L ++ f :: M)) {g : Fl α} (hg : g ∈ M) :
    klt f.key g.key := by
  have := sorted_of_append_right h
  unfold Sorted at this
  rw [List.map_cons, List.pairwise_cons] at this
  exact this.1 _ (List.mem_map_of_mem hg)

theorem Sorted.insert {A B : List (Fl α)} {f : Fl α} (h : Sorted (A ++ B)) (ha : ∀ x ∈ A, klt x.key f.key)
    (hb : ∀ x ∈ B, klt f.key x.key) : Sorted (A ++ f :: B) := by
  unfold Sorted at *
  rw [List.map_append, List.pairwise_append] at h
  obtain ⟨h1, h2, h3⟩ := h
  rw [List.map_append, List.map_cons, List.pairwise_append, List.pairwise_cons]
  refine ⟨h1, ⟨?_, h2⟩, ?_⟩
  · intro k hk
    obtain ⟨x, hx, rfl⟩ := List.mem_map.1 hk
    exact hb x hx
  · intro k hk k' hk'
    rcases List.mem_cons.1 hk' with rfl | hk'
    · obtain ⟨x, hx, rfl⟩ := List.mem_map.1 hk
      exact ha x hx
    · exact h3 k hk k' hk'

/-- `L'` is `L` with the interval `v` added under the key, at the location `loc`. -/
def AddTo (a : Nat) (pos id : Int) (v : Ival α) (L L' : List (Fl α)) (loc : Nat) : Prop :=
  (∃ A B, L = A ++ B ∧ L' = A ++ ⟨a, pos, id, [v]⟩ :: B ∧ loc = a ∧
    (∀ x ∈ A, klt x.key (pos, id)) ∧ ∀ x ∈ B, klt (pos, id) x.key) ∨
  (∃ A g B, L = A ++ g :: B ∧ L' = A ++ { g with ivs := g.ivs ++ [v] } :: B ∧ g.pos = pos ∧ g.id = id ∧
    loc = g.addr)

theorem AddTo.sorted {a : Nat} {pos id : Int} {v : Ival α} {L L' : List (Fl α)} {loc : Nat}
    (h : AddTo a pos id v L L' loc) (hs : Sorted L) : Sorted L' := by
  rcases h with ⟨A, B, rfl, rfl, -, h1, h2⟩ | ⟨A, g, B, rfl, rfl, h1, h2, -⟩
  · exact hs.insert h1 h2
  · refine hs.sub ?_
    simp [Fl.key]

theorem AddTo.left {a : Nat} {pos id : Int} {v : Ival α} {L L' : List (Fl α)} {loc : Nat}
    (h : AddTo a pos id v L L' loc) {M : List (Fl α)} (hm : ∀ x ∈ M, klt (pos, id) x.key) :
    AddTo a pos id v (L ++ M) (L' ++ M) loc := by
  rcases h with ⟨A, B, rfl, rfl, h0, h1, h2⟩ | ⟨A, g, B, rfl, rfl, h1, h2, h3⟩
  · refine .inl ⟨A, B ++ M, by simp, by simp, h0, h1, fun x hx => ?_⟩
    rcases List.mem_append.1 hx with hx | hx
    · exact h2 x hx
    · exact hm x hx
  · exact .inr ⟨A, g, B ++ M, by simp, by simp, h1, h2, h3⟩

theorem AddTo.right {a : Nat} {pos id : Int} {v : Ival α} {L L' : List (Fl α)} {loc : Nat}
    (h : AddTo a pos id v L L' loc) {M : List (Fl α)} (hm : ∀ x ∈ M, klt x.key (pos, id)) :
    AddTo a pos id v (M ++ L) (M ++ L') loc := by
  rcases h with ⟨A, B, rfl, rfl, h0, h1, h2⟩ | ⟨A, g, B, rfl, rfl, h1, h2, h3⟩
  · refine .inl ⟨M ++ A, B, by simp, by simp, h0, fun x hx => ?_, h2⟩
    rcases List.mem_append.1 hx with hx | hx
    · exact hm x hx
    · exact h1 x hx
  · exact .inr ⟨M ++ A, g, B, by simp, by simp, h1, h2, h3⟩

theorem add_res (a : Nat) (pos id : Int) (v : Ival α) (hv : v.low = pos) (hp : pos ≤ v.high) (f : Nat) :
    ∀ t : Tr α, t.size < f → Inv t →
    ∃ L', Res (add a pos id v f t).1 L' ∧ AddTo a pos id v (den t) L' (add a pos id v f t).2 := by
  induction f with
  | zero => intro t h; omega
  | succ f ih =>
    intro t hf h
    rw [add]
    cases e : t.sync with
    | nil =>
      rw [sync_nil e]
      refine ⟨_, ⟨_, _, _, rfl, ⟨rfl, trivial, trivial, List.pairwise_singleton _ _, ?_⟩, rfl⟩, ?_⟩
      · intro g hg
        rw [den, List.nil_append, List.mem_singleton] at hg
        subst hg
        refine ⟨hp, fun i hi => ?_⟩
        simp only [Nd.fl, List.mem_singleton] at hi
        subst hi
        exact ⟨hv, Int.le_refl _⟩
      · exact .inl ⟨[], [], rfl, rfl, rfl, fun x h => (by cases h), fun x h => (by cases h)⟩
    | node d l r =>
      obtain ⟨g, ed⟩ := sync_node h e
      have hsz : l.size < f ∧ r.size < f := by
        rw [size_den] at hf
        rw [ed, List.length_append, List.length_cons] at hf
        rw [size_den, size_den]
        omega
      simp only []
      cases hc : compareKey pos id d.pos d.id with
      | lt =>
        have hk := compareKey_lt hc
        obtain ⟨L', h1, h2⟩ := ih l hsz.1 g.il
        obtain ⟨m, em, hm⟩ := h1.bound
        have h3 : AddTo a pos id v (den t) (L' ++ d.fl :: den r) (add a pos id v f l).2 := by
          rw [ed]
          refine h2.left fun x hx => ?_
          rcases List.mem_cons.1 hx with rfl | hx
          · exact hk
          · exact klt_trans hk (g.ord.right_gt hx)
        refine ⟨_, ?_, h3⟩
        have hs := h3.sorted (by rw [ed]; exact g.ord)
        rw [← h1.den] at hs ⊢
        refine rebalance_res g.none h1.inv g.ir hs fun x hx => ?_
        rw [em]
        rcases List.mem_append.1 hx with hx | hx
        · rw [h1.den] at hx
          exact (hm x hx).mono (updateMax_l _ _ _)
        · exact (g.ok x (List.mem_append_right _ hx)).mono (updateMax_ge _ _ _)
      | gt =>
        have hk := compareKey_gt hc
        obtain ⟨L', h1, h2⟩ := ih r hsz.2 g.ir
        obtain ⟨m, em, hm⟩ := h1.bound
        have h3 : AddTo a pos id v (den t) (den l ++ d.fl :: L') (add a pos id v f r).2 := by
          rw [ed]
          have := h2.right (M := den l ++ [d.fl]) fun x hx => by
            rcases List.mem_append.1 hx with hx | hx
            · exact klt_trans (g.ord.left_lt hx) hk
            · rw [List.mem_singleton.1 hx]; exact hk
          simpa using this
        refine ⟨_, ?_, h3⟩
        have hs := h3.sorted (by rw [ed]; exact g.ord)
        rw [← h1.den] at hs ⊢
        refine rebalance_res g.none g.il h1.inv hs fun x hx => ?_
        rw [em]
        rcases List.mem_append.1 hx with hx | hx
        · exact (g.ok x (List.mem_append_left _ hx)).mono (updateMax_ge _ _ _)
        · rcases List.mem_cons.1 hx with rfl | hx
          · exact (g.ok d.fl (by simp)).mono (updateMax_ge _ _ _)
          · rw [h1.den] at hx
            exact (hm x hx).mono (updateMax_r _ _ _)
      | eq =>
        obtain ⟨rfl, rfl⟩ := compareKey_eq hc
        have h3 : AddTo a d.pos d.id v (den t)
            (den l ++ ({ d with ivs := d.ivs ++ [v] } : Nd α).fl :: den r) d.addr := by
          rw [ed]
          exact .inr ⟨den l, d.fl, den r, rfl, rfl, rfl, rfl, rfl⟩
        refine ⟨_, ?_, h3⟩
        have hs := h3.sorted (by rw [ed]; exact g.ord)
        refine rebalance_res (d := { d with ivs := d.ivs ++ [v] }) g.none g.il g.ir hs fun x hx => ?_
        have hge : d.mx ≤ (updateMax ({ d with ivs := d.ivs ++ [v] } : Nd α)
            l.mx? r.mx?).mx := updateMax_ge _ _ _
        rcases List.mem_append.1 hx with hx | hx
        · exact (g.ok x (List.mem_append_left _ hx)).mono hge
        · rcases List.mem_cons.1 hx with rfl | hx
          · have h0 := (g.ok d.fl (by simp)).mono hge
            refine ⟨h0.1, fun i hi => ?_⟩
            rcases List.mem_append.1 hi with hi' | hi'
            · exact h0.2 i hi'
            · rw [List.mem_singleton] at hi'
              subst hi'
              refine ⟨hv, Int.le_trans ?_ (updateMax_own _ _ _)⟩
              exact calcMax_ge hi
          · exact (g.ok x (List.mem_append_right _ (List.mem_cons_of_mem _ hx))).mono hge

/-- Nothing changes if the children are replaced by trees with the same contents. -/
theorem good_subst {d : Nd α} {l r l' r' : Tr α} (g : Good d l r) (hl : Inv l') (el : den l' = den l)
    (hr : Inv r') (er : den r' = den r) : Good d l' r' :=
  ⟨g.none, hl, hr, by rw [el, er]; exact g.ord, by rw [el, er]; exact g.ok⟩

theorem child_sizes {t : Tr α} (h : Inv t) {d : Nd α} {l r : Tr α} (e : t.sync = .node d l r) :
    l.size + r.size + 1 = t.size := by
  rw [size_den t, (sync_node h e).2, List.length_append, List.length_cons, size_den, size_den]
  omega

theorem search_spec (pos id : Int) (f : Nat) : ∀ t : Tr α, t.size < f → Inv t →
    Inv (search pos id f t).1 ∧ den (search pos id f t).1 = den t ∧
    (∀ d, (search pos id f t).2 = some d → d.fl ∈ den t ∧ d.pos = pos ∧ d.id = id) ∧
    ((search pos id f t).2 = none → ∀ g ∈ den t, ¬ (g.pos = pos ∧ g.id = id)) := by
  induction f with
  | zero => intro t h; omega
  | succ f ih =>
    intro t hf h
    rw [search]
    cases e : t.sync with
    | nil =>
      rw [sync_nil e]
      exact ⟨trivial, rfl, fun d h => (by cases h), fun _ g hg => (by cases hg)⟩
    | node d l r =>
      obtain ⟨g, ed⟩ := sync_node h e
      have hsz := child_sizes h e
      simp only []
      rw [ed]
      cases hc : compareKey pos id d.pos d.id with
      | lt =>
        have hk := compareKey_lt hc
        obtain ⟨h1, h2, h3, h4⟩ := ih l (by omega) g.il
        have g' := good_subst g h1 h2 g.ir rfl
        refine ⟨g'.inv, by rw [g'.den, h2], fun c hcn => ?_, fun hn x hx => ?_⟩
        · obtain ⟨a, b⟩ := h3 c hcn
          exact ⟨List.mem_append_left _ a, b⟩
        · rcases List.mem_append.1 hx with hx | hx
          · exact h4 hn x hx
          · have hlt : klt (pos, id) x.key := by
              rcases List.mem_cons.1 hx with rfl | hx
              · exact hk
              · exact klt_trans hk (g.ord.right_gt hx)
            rintro ⟨rfl, rfl⟩
            exact klt_irrefl _ hlt
      | gt =>
        have hk := compareKey_gt hc
        obtain ⟨h1, h2, h3, h4⟩ := ih r (by omega) g.ir
        have g' := good_subst g g.il rfl h1 h2
        refine ⟨g'.inv, by rw [g'.den, h2], fun c hcn => ?_, fun hn x hx => ?_⟩
        · obtain ⟨a, b⟩ := h3 c hcn
          exact ⟨List.mem_append_right _ (List.mem_cons_of_mem _ a), b⟩
        · rcases List.mem_append.1 hx with hx | hx
          · have hlt : klt x.key (pos, id) := klt_trans (g.ord.left_lt hx) hk
            rintro ⟨rfl, rfl⟩
            exact klt_irrefl _ hlt
          · rcases List.mem_cons.1 hx with rfl | hx
            · rintro ⟨rfl, rfl⟩
              exact klt_irrefl _ hk
            · exact h4 hn x hx
      | eq =>
        obtain ⟨rfl, rfl⟩ := compareKey_eq hc
        refine ⟨g.inv, g.den, fun c hcn => ?_, fun hn => (by cases hn)⟩
        injection hcn with hcn
        subst hcn
        exact ⟨by simp, rfl, rfl⟩

theorem findSmallest_spec (f : Nat) : ∀ (d : Nd α) (l r : Tr α), l.size ≤ f → Good d l r →
    Inv (findSmallest f d l r).1 ∧ den (findSmallest f d l r).1 = den l ++ d.fl :: den r ∧
    (findSmallest f d l r).2.shifts = [] ∧
    ∃ rest, den l ++ d.fl :: den r = (findSmallest f d l r).2.fl :: rest := by
  induction f with
  | zero =>
    intro d l r hf g
    have : l = .nil := by
      cases l with
      | nil => rfl
      | node => rw [Tr.size] at hf; omega
    subst this
    exact ⟨g.inv, g.den, g.none, _, rfl⟩
  | succ f ih =>
    intro d l r hf g
    rw [findSmallest]
    cases e : l.sync with
    | nil =>
      have := sync_nil e
      subst this
      exact ⟨g.inv, g.den, g.none, _, rfl⟩
    | node c ll lr =>
      obtain ⟨gl, el⟩ := sync_node g.il e
      have hsz := child_sizes g.il e
      obtain ⟨h1, h2, h3, rest, h4⟩ := ih c ll lr (by omega) gl
      simp only []
      rw [← el] at h2
      have g' := good_subst g h1 h2 g.ir rfl
      refine ⟨g'.inv, by rw [g'.den, h2], h3, rest ++ d.fl :: den r, ?_⟩
      rw [el, h4]
      rfl

/-- The contents without the key. -/
def drop (pos id : Int) (L : List (Fl α)) : List (Fl α) := L.filter fun f => !(f.pos == pos && f.id == id)

theorem drop_none {pos id : Int} {L : List (Fl α)} (h : ∀ f ∈ L, f.key ≠ (pos, id)) : drop pos id L = L := by
  rw [drop, List.filter_eq_self]
  intro f hf
  have := h f hf
  simp only [Fl.key, ne_eq, Prod.mk.injEq, not_and] at this
  simp only [Bool.not_eq_true', Bool.and_eq_false_iff, beq_eq_false_iff_ne]
  by_cases hp : f.pos = pos
  · exact .inr (this hp)
  · exact .inl hp

theorem drop_at {A B : List (Fl α)} {g : Fl α} (h : Sorted (A ++ g :: B)) :
    drop g.pos g.id (A ++ g :: B) = A ++ B := by
  have ha : drop g.pos g.id A = A := drop_none fun f hf he => klt_irrefl g.key (by
    have := h.left_lt hf
    rw [he] at this
    exact this)
  have hb : drop g.pos g.id B = B := drop_none fun f hf he => klt_irrefl g.key (by
    have := h.right_gt hf
    rw [he] at this
    exact this)
  rw [drop] at *
  rw [List.filter_append, List.filter_cons_of_neg (by simp), ha, hb]

theorem drop_append (pos id : Int) (A B : List (Fl α)) : drop pos id (A ++ B) = drop pos id A ++ drop pos id B :=
  List.filter_append ..

theorem drop_sub (pos id : Int) (L : List (Fl α)) : (drop pos id L).Sublist L := List.filter_sublist

theorem remove_spec (f : Nat) : ∀ (pos id : Int) (t : Tr α), t.size ≤ f → Inv t →
    Inv (remove f pos id t) ∧ den (remove f pos id t) = drop pos id (den t) := by
  induction f with
  | zero =>
    intro pos id t hf h
    have : t = .nil := by
      cases t with
      | nil => rfl
      | node => rw [Tr.size] at hf; omega
    subst this
    exact ⟨trivial, rfl⟩
  | succ f ih =>
    intro pos id t hf h
    rw [remove]
    cases e : t.sync with
    | nil =>
      rw [sync_nil e]
      exact ⟨trivial, rfl⟩
    | node d l r =>
      obtain ⟨g, ed⟩ := sync_node h e
      have hsz := child_sizes h e
      simp only []
      rw [ed]
      cases hc : compareKey pos id d.pos d.id with
      | lt =>
        have hk := compareKey_lt hc
        obtain ⟨h1, h2⟩ := ih pos id l (by omega) g.il
        have hd : drop pos id (d.fl :: den r) = d.fl :: den r := drop_none fun x hx he => by
          have hlt : klt (pos, id) x.key := by
            rcases List.mem_cons.1 hx with rfl | hx
            · exact hk
            · exact klt_trans hk (g.ord.right_gt hx)
          rw [he] at hlt
          exact klt_irrefl _ hlt
        have hsub : (drop pos id (den l) ++ d.fl :: den r).Sublist (den l ++ d.fl :: den r) :=
          (drop_sub pos id _).append_right _
        have g' : Good d (remove f pos id l) r :=
          ⟨g.none, h1, g.ir, by rw [h2]; exact g.ord.sub (hsub.map _),
            by rw [h2]; exact fun x hx => g.ok x (hsub.subset hx)⟩
        have hr := rebalance_good g'
        exact ⟨hr.inv, by rw [hr.den, h2, drop_append, hd]⟩
      | gt =>
        have hk := compareKey_gt hc
        obtain ⟨h1, h2⟩ := ih pos id r (by omega) g.ir
        have hd : drop pos id (den l ++ [d.fl]) = den l ++ [d.fl] := drop_none fun x hx he => by
          have hlt : klt x.key (pos, id) := by
            rcases List.mem_append.1 hx with hx | hx
            · exact klt_trans (g.ord.left_lt hx) hk
            · rw [List.mem_singleton.1 hx]; exact hk
          rw [he] at hlt
          exact klt_irrefl _ hlt
        have hsub : (den l ++ d.fl :: drop pos id (den r)).Sublist (den l ++ d.fl :: den r) :=
          ((drop_sub pos id _).cons_cons _).append_left _
        have g' : Good d l (remove f pos id r) :=
          ⟨g.none, g.il, h1, by rw [h2]; exact g.ord.sub (hsub.map _),
            by rw [h2]; exact fun x hx => g.ok x (hsub.subset hx)⟩
        have hr := rebalance_good g'
        refine ⟨hr.inv, ?_⟩
        rw [hr.den, h2]
        have : den l ++ d.fl :: den r = (den l ++ [d.fl]) ++ den r := by simp
        rw [this, drop_append, hd]
        simp
      | eq =>
        obtain ⟨rfl, rfl⟩ := compareKey_eq hc
        have hdrop : drop d.pos d.id (den l ++ d.fl :: den r) = den l ++ den r := drop_at g.ord
        rw [hdrop]
        cases el : l.sync with
        | nil =>
          have e0 := sync_nil el
          subst e0
          cases er : r.sync with
          | nil =>
            have e0 := sync_nil er
            subst e0
            exact ⟨trivial, rfl⟩
          | node c rl rr =>
            obtain ⟨gr, er'⟩ := sync_node g.ir er
            have hr := rebalance_good gr
            exact ⟨hr.inv, by rw [hr.den, ← er']; rfl⟩
        | node b ll lr =>
          obtain ⟨gl, el'⟩ := sync_node g.il el
          cases er : r.sync with
          | nil =>
            have e0 := sync_nil er
            subst e0
            have hr := rebalance_good gl
            exact ⟨hr.inv, by rw [hr.den, ← el', den, List.append_nil]⟩
          | node c rl rr =>
            obtain ⟨gr, er'⟩ := sync_node g.ir er
            simp only []
            obtain ⟨h1, h2, h3, rest, h4⟩ := findSmallest_spec rl.size c rl rr (Nat.le_refl _) gr
            rw [← er'] at h2 h4
            obtain ⟨h5, h6⟩ := ih (findSmallest rl.size c rl rr).2.pos (findSmallest rl.size c rl rr).2.id
              (findSmallest rl.size c rl rr).1 (by rw [size_den, h2, ← size_den]; omega) h1
            generalize findSmallest rl.size c rl rr = q at *
            have h7 : den (remove f q.2.pos q.2.id q.1) = rest := by
              rw [h6, h2, h4]
              have hs := sorted_of_append_right (L := [d.fl]) (sorted_of_append_right g.ord)
              rw [h4] at hs
              exact drop_at (A := []) hs
            have hl : den (.node b ll lr) = den l := by rw [gl.den, ← el']
            have hsub : (den l ++ q.2.fl :: rest).Sublist (den l ++ d.fl :: den r) := by
              rw [← h4]
              exact (List.sublist_cons_self _ _).append_left _
            have g' : Good ({ q.2 with mx := d.mx, h := d.h } : Nd α) (.node b ll lr) (remove f q.2.pos q.2.id q.1) := by
              refine ⟨h3, gl.inv, h5, ?_, ?_⟩
              · rw [hl, h7]; exact g.ord.sub (hsub.map _)
              · rw [hl, h7]; exact fun x hx => g.ok x (hsub.subset hx)
            have hr := rebalance_good g'
            refine ⟨hr.inv, ?_⟩
            rw [hr.den, hl, h7, h4]
            rfl

/-- What `removeOverlaps` does to the contents of a node. -/
def clean (low high : Int) (f : Fl α) : Option (Fl α) :=
  let ivs := swapRemove (Ival.overlaps low high) f.ivs.length f.ivs
  if ivs.isEmpty then none else some { f with ivs := ivs }

theorem swapRemove_id {β : Type} (p : β → Bool) (f : Nat) : ∀ l : List β, l.length ≤ f → (∀ x ∈ l, p x = false) →
    swapRemove p f l = l := by
  induction f with
  | zero => intro l h _; cases l with
    | nil => rfl
    | cons => cases h
  | succ f ih =>
    intro l h hp
    cases l with
    | nil => rfl
    | cons x xs =>
      rw [swapRemove, if_neg (by rw [hp x List.mem_cons_self]; simp), ih xs (by simpa using h)
        (fun y hy => hp y (List.mem_cons_of_mem _ hy))]

theorem mem_swapRemove {β : Type} {p : β → Bool} {l : List β} {x : β} :
    x ∈ swapRemove p l.length l ↔ x ∈ l ∧ p x = false := by
  rw [(swapRemove_perm p l.length l (Nat.le_refl _)).mem_iff, List.mem_filter]
  simp

theorem clean_self {low high : Int} {f : Fl α} (hn : f.ivs ≠ [])
    (h : ∀ i ∈ f.ivs, Ival.overlaps low high i = false) : clean low high f = some f := by
  rw [clean]
  rw [swapRemove_id _ _ _ (Nat.le_refl _) h, if_neg (by simpa using hn)]

theorem clean_some {low high : Int} {f g : Fl α} (h : clean low high f = some g) :
    g.key = f.key ∧ g.addr = f.addr ∧ g.ivs ≠ [] ∧ (∀ i, i ∈ g.ivs ↔ i ∈ f.ivs ∧ Ival.overlaps low high i = false) := by
  rw [clean] at h
  split at h
  · cases h
  · rename_i hn
    injection h with h
    subst h
    exact ⟨rfl, rfl, by simpa using hn, fun i => mem_swapRemove⟩

theorem clean_idem {low high : Int} {f g : Fl α} (h : clean low high f = some g) : clean low high g = some g := by
  obtain ⟨-, -, h1, h2⟩ := clean_some h
  exact clean_self h1 fun i hi => ((h2 i).1 hi).2

theorem filterMap_clean_idem (low high : Int) (L : List (Fl α)) :
    (L.filterMap (clean low high)).filterMap (clean low high) = L.filterMap (clean low high) := by
  rw [List.filterMap_filterMap]
  refine List.filterMap_congr fun f _ => ?_
  cases h : clean low high f with
  | none => rfl
  | some g => exact clean_idem h

theorem filterMap_self {β : Type} {g : β → Option β} {L : List β} (h : ∀ f ∈ L, g f = some f) :
    L.filterMap g = L := by
  induction L with
  | nil => rfl
  | cons f L ih =>
    rw [List.filterMap_cons, h f List.mem_cons_self]
    simp only []
    rw [ih fun x hx => h x (List.mem_cons_of_mem _ hx)]

theorem clean_keys (low high : Int) (L : List (Fl α)) :
    ((L.filterMap (clean low high)).map Fl.key).Sublist (L.map Fl.key) := by
  induction L with
  | nil => exact List.Sublist.refl _
  | cons f L ih =>
    rw [List.filterMap_cons]
    cases h : clean low high f with
    | none => exact ih.trans (List.sublist_cons_self _ _)
    | some g =>
      simp only [List.map_cons]
      rw [(clean_some h).1]
      exact ih.cons_cons _

theorem clean_fok {low high m : Int} {f g : Fl α} (h : clean low high f = some g) (hf : FOK m f) : FOK m g := by
  obtain ⟨h1, -, -, h2⟩ := clean_some h
  have : g.pos = f.pos := congrArg Prod.fst h1
  refine ⟨by rw [this]; exact hf.1, fun i hi => ?_⟩
  rw [this]
  exact hf.2 i ((h2 i).1 hi).1

/-- `removeOverlaps` after the left child and the node's own intervals are done. -/
def rest (low high : Int) (f : Nat) (d : Nd α) (l r : Tr α) : Tr α :=
  if d.ivs.isEmpty then
    if high > d.pos then removeOverlaps low high f (remove (Tr.node d l r).size d.pos d.id (.node d l r))
    else remove (Tr.node d l r).size d.pos d.id (.node d l r)
  else if high ≤ d.pos then .node d l r
  else .node d l (removeOverlaps low high f r)

theorem removeOverlaps_node {low high : Int} {f : Nat} {t : Tr α} {d : Nd α} {l r : Tr α}
    (e : t.sync = .node d l r) (h : ¬ low ≥ d.mx) : removeOverlaps low high (f + 1) t =
      rest low high f { d with ivs := swapRemove (Ival.overlaps low high) d.ivs.length d.ivs }
        (removeOverlaps low high f l) r := by
  rw [removeOverlaps, e]
  simp only []
  rw [if_neg h]
  rfl

theorem removeOverlaps_spec (low high : Int) (f : Nat) : ∀ t : Tr α, t.size < f → Inv t →
    (∀ g ∈ den t, g.ivs ≠ []) →
    Inv (removeOverlaps low high f t) ∧
      den (removeOverlaps low high f t) = (den t).filterMap (clean low high) := by
  induction f with
  | zero => intro t h; omega
  | succ f ih =>
    intro t hf h hne
    cases e : t.sync with
    | nil =>
      rw [removeOverlaps, e, sync_nil e]
      exact ⟨trivial, rfl⟩
    | node d l r =>
      obtain ⟨g, ed⟩ := sync_node h e
      have hsz := child_sizes h e
      rw [ed] at hne ⊢
      by_cases hmx : low ≥ d.mx
      · rw [removeOverlaps, e]
        simp only []
        rw [if_pos hmx]
        refine ⟨g.inv, ?_⟩
        rw [g.den]
        refine (filterMap_self fun x hx => clean_self (hne x hx) fun i hi => ?_).symm
        have := ((g.ok x hx).2 i hi).2
        simp only [Ival.overlaps, Bool.and_eq_false_iff, decide_eq_false_iff_not]
        omega
      · rw [removeOverlaps_node e hmx]
        obtain ⟨h1, h2⟩ := ih l (by omega) g.il fun x hx => hne x (List.mem_append_left _ hx)
        generalize removeOverlaps low high f l = l' at h1 h2 ⊢
        have hcl : clean low high d.fl =
            if (swapRemove (Ival.overlaps low high) d.ivs.length d.ivs).isEmpty then none
            else some ({ d with ivs := swapRemove (Ival.overlaps low high) d.ivs.length d.ivs } : Nd α).fl := rfl
        -- the node with its intervals cleaned and the left child done
        have hd' : FOK d.mx ({ d with ivs := swapRemove (Ival.overlaps low high) d.ivs.length d.ivs } : Nd α).fl := by
          have := g.ok d.fl (by simp)
          exact ⟨this.1, fun i hi => this.2 i (mem_swapRemove.1 hi).1⟩
        generalize hd : ({ d with ivs := swapRemove (Ival.overlaps low high) d.ivs.length d.ivs } : Nd α) = d' at hcl hd' ⊢
        have e1 : d'.pos = d.pos := by rw [← hd]
        have e2 : d'.id = d.id := by rw [← hd]
        have e3 : d'.ivs = swapRemove (Ival.overlaps low high) d.ivs.length d.ivs := by rw [← hd]
        have e4 : d'.mx = d.mx := by rw [← hd]
        have e5 : d'.shifts = [] := by rw [← hd]; exact g.none
        rw [← e3] at hcl
        have hkey : d'.fl.key = d.fl.key := by simp [Fl.key, Nd.fl, e1, e2]
        have keys : ∀ R : List (Fl α), (R.map Fl.key).Sublist ((den r).map Fl.key) →
            Sorted ((den l).filterMap (clean low high) ++ d'.fl :: R) := fun R hR => by
          refine g.ord.sub ?_
          rw [List.map_append, List.map_append, List.map_cons, List.map_cons, hkey]
          exact (clean_keys low high _).append (hR.cons_cons _)
        have oks : ∀ R : List (Fl α), (∀ x ∈ R, FOK d.mx x) →
            ∀ x ∈ (den l).filterMap (clean low high) ++ d'.fl :: R, FOK d'.mx x := fun R hR x hx => by
          rw [e4]
          rcases List.mem_append.1 hx with hx | hx
          · obtain ⟨y, hy, he⟩ := List.mem_filterMap.1 hx
            exact clean_fok he (g.ok y (List.mem_append_left _ hy))
          · rcases List.mem_cons.1 hx with rfl | hx
            · exact hd'
            · exact hR x hx
        have okr : ∀ x ∈ den r, FOK d.mx x := fun x hx =>
          g.ok x (List.mem_append_right _ (List.mem_cons_of_mem _ hx))
        have gd : Good d' l' r :=
          ⟨e5, h1, g.ir, by rw [h2]; exact keys _ (List.Sublist.refl _), by rw [h2]; exact oks _ okr⟩
        have hright : high ≤ d'.pos → (den r).filterMap (clean low high) = den r := fun hh => by
          refine filterMap_self fun x hx => clean_self
            (hne x (List.mem_append_right _ (List.mem_cons_of_mem _ hx))) fun i hi => ?_
          have h3 := g.ord.right_gt hx
          have h4 := ((g.ok x (List.mem_append_right _ (List.mem_cons_of_mem _ hx))).2 i hi).1
          simp only [klt, Fl.key, Nd.fl] at h3
          simp only [Ival.overlaps, Bool.and_eq_false_iff, decide_eq_false_iff_not]
          omega
        rw [List.filterMap_append, List.filterMap_cons, hcl, rest]
        split
        · rename_i hemp
          obtain ⟨r1, r2⟩ := remove_spec (Tr.node d' l' r).size d'.pos d'.id (.node d' l' r) (Nat.le_refl _) gd.inv
          generalize remove (Tr.node d' l' r).size d'.pos d'.id (.node d' l' r) = n at r1 r2 ⊢
          rw [gd.den, show drop d'.pos d'.id (den l' ++ d'.fl :: den r) = den l' ++ den r from drop_at gd.ord, h2] at r2
          split
          · have hn : n.size < f := by
              have hll : ((den l).filterMap (clean low high)).length ≤ (den l).length := List.length_filterMap_le ..
              rw [size_den, r2, List.length_append]
              rw [size_den l, size_den r] at hsz
              omega
            obtain ⟨q1, q2⟩ := ih n hn r1 (fun x hx => by
              rw [r2] at hx
              rcases List.mem_append.1 hx with hx | hx
              · obtain ⟨y, -, he⟩ := List.mem_filterMap.1 hx
                exact (clean_some he).2.2.1
              · exact hne x (List.mem_append_right _ (List.mem_cons_of_mem _ hx)))
            refine ⟨q1, ?_⟩
            rw [q2, r2, List.filterMap_append, filterMap_clean_idem]
          · rename_i hh
            exact ⟨r1, by rw [r2, hright (by omega)]⟩
        · rename_i hemp
          split
          · rename_i hh
            exact ⟨gd.inv, by rw [gd.den, h2, hright hh]⟩
          · obtain ⟨q1, q2⟩ := ih r (by omega) g.ir fun x hx =>
              hne x (List.mem_append_right _ (List.mem_cons_of_mem _ hx))
            have g2 : Good d' l' (removeOverlaps low high f r) := by
              refine ⟨e5, h1, q1, ?_, ?_⟩
              · rw [h2, q2]; exact keys _ (clean_keys low high _)
              · rw [h2, q2]
                refine oks _ fun x hx => ?_
                obtain ⟨y, hy, he⟩ := List.mem_filterMap.1 hx
                exact clean_fok he (okr y hy)
            exact ⟨g2.inv, by rw [g2.den, h2, q2]⟩

/-- The values of a node that meet a range. -/
def hits (low high : Int) (f : Fl α) : List α := (f.ivs.filter (Ival.overlaps low high)).map Ival.val

theorem foldl_hits (low high : Int) (ivs : List (Ival α)) : ∀ res : List α,
    ivs.foldl (fun res i => if i.overlaps low high then res ++ [i.val] else res) res =
      res ++ (ivs.filter (Ival.overlaps low high)).map Ival.val := by
  induction ivs with
  | nil => intro res; simp
  | cons i is ih =>
    intro res
    rw [List.foldl_cons, ih]
    by_cases h : i.overlaps low high
    · rw [if_pos h, List.filter_cons_of_pos h]; simp
    · rw [if_neg h, List.filter_cons_of_neg h]

theorem hits_nil {low high : Int} {f : Fl α} (h : ∀ i ∈ f.ivs, Ival.overlaps low high i = false) :
    hits low high f = [] := by
  rw [hits, List.filter_eq_nil_iff.2 (fun i hi => by rw [h i hi]; simp)]
  rfl

theorem overlaps_spec (low high : Int) (f : Nat) : ∀ (t : Tr α) (res : List α), t.size < f → Inv t →
    Inv (overlaps low high f t res).1 ∧ den (overlaps low high f t res).1 = den t ∧
      (overlaps low high f t res).2 = res ++ (den t).flatMap (hits low high) := by
  induction f with
  | zero => intro t _ h; omega
  | succ f ih =>
    intro t res hf h
    rw [overlaps]
    cases e : t.sync with
    | nil =>
      rw [sync_nil e]
      exact ⟨trivial, rfl, by simp [den]⟩
    | node d l r =>
      obtain ⟨g, ed⟩ := sync_node h e
      have hsz := child_sizes h e
      rw [ed]
      simp only []
      split
      · rename_i hmx
        refine ⟨g.inv, g.den, ?_⟩
        rw [List.flatMap_eq_nil_iff.2, List.append_nil]
        intro x hx
        refine hits_nil fun i hi => ?_
        have := ((g.ok x hx).2 i hi).2
        simp only [Ival.overlaps, Bool.and_eq_false_iff, decide_eq_false_iff_not]
        omega
      · obtain ⟨h1, h2, h3⟩ := ih l res (by omega) g.il
        generalize overlaps low high f l res = q at h1 h2 h3 ⊢
        simp only [h3, foldl_hits]
        split
        · rename_i hh
          have g' := good_subst g h1 h2 g.ir rfl
          refine ⟨g'.inv, by rw [g'.den, h2], ?_⟩
          rw [List.flatMap_append, List.flatMap_cons, (List.flatMap_eq_nil_iff (l := den r)).2, List.append_nil,
            List.append_assoc]
          · rfl
          · intro x hx
            refine hits_nil fun i hi => ?_
            have h3 := g.ord.right_gt hx
            have h4 := ((g.ok x (List.mem_append_right _ (List.mem_cons_of_mem _ hx))).2 i hi).1
            simp only [klt, Fl.key, Nd.fl] at h3
            simp only [Ival.overlaps, Bool.and_eq_false_iff, decide_eq_false_iff_not]
            omega
        · obtain ⟨r1, r2, r3⟩ := ih r (res ++ (den l).flatMap (hits low high) ++
            (d.ivs.filter (Ival.overlaps low high)).map Ival.val) (by omega) g.ir
          have g' := good_subst g h1 h2 r1 r2
          refine ⟨g'.inv, by rw [g'.den, h2, r2], ?_⟩
          rw [r3, List.flatMap_append, List.flatMap_cons]
          simp [hits, Nd.fl]

theorem has_iff (a : Nat) (t : Tr α) : t.has a = true ↔ a ∈ (den t).map Fl.addr := by
  induction t with
  | nil => simp [Tr.has, den]
  | node d l r ihl ihr =>
    rw [Tr.has, den, List.map_map, Bool.or_eq_true, Bool.or_eq_true, ihl, ihr]
    have : (Fl.addr ∘ mvs d.shifts : Fl α → Nat) = Fl.addr := by
      funext f; exact mvs_addr _ _
    rw [this, List.map_append, List.map_cons, List.mem_append, List.mem_cons, beq_iff_eq]
    have : d.fl.addr = d.addr := rfl
    rw [this]
    constructor
    · rintro ((h | h) | h)
      · exact .inr (.inl h.symm)
      · exact .inl h
      · exact .inr (.inr h)
    · rintro (h | h | h)
      · exact .inl (.inr h)
      · exact .inl (.inl h.symm)
      · exact .inr h

theorem at?_none {a : Nat} (t : Tr α) (h : a ∉ (den t).map Fl.addr) : t.at? a = none := by
  induction t with
  | nil => rfl
  | node d l r ihl ihr =>
    rw [den, List.map_map] at h
    have : (Fl.addr ∘ mvs d.shifts : Fl α → Nat) = Fl.addr := by
      funext f; exact mvs_addr _ _
    rw [this, List.map_append, List.map_cons, List.mem_append, List.mem_cons, not_or, not_or] at h
    rw [Tr.at?, if_neg (fun e => h.2.1 e.symm), ihl h.1, ihr h.2.2]
    rfl

theorem touch_spec (a : Nat) (f : Nat) : ∀ t : Tr α, t.size < f → Inv t →
    Inv (t.touch a f) ∧ den (t.touch a f) = den t ∧
    (((den t).map Fl.addr).Nodup → ∀ g ∈ den t, g.addr = a → ∃ d, (t.touch a f).at? a = some d ∧ d.fl = g) := by
  induction f with
  | zero => intro t h; omega
  | succ f ih =>
    intro t hf h
    rw [Tr.touch]
    split
    · rename_i hh
      cases e : t.sync with
      | nil => rw [sync_nil e] at hh; cases hh
      | node d l r =>
        obtain ⟨g, ed⟩ := sync_node h e
        have hsz := child_sizes h e
        rw [ed]
        simp only []
        split
        · rename_i ha
          refine ⟨g.inv, g.den, fun hnd x hx hxa => ⟨d, by rw [Tr.at?, if_pos ha], ?_⟩⟩
          have hda : d.fl.addr = a := ha
          rw [List.map_append, List.map_cons, List.nodup_append, List.nodup_cons] at hnd
          obtain ⟨-, ⟨hn1, -⟩, hn2⟩ := hnd
          rcases List.mem_append.1 hx with hx | hx
          · exact absurd (hxa.trans hda.symm) (hn2 _ (List.mem_map_of_mem hx) _ List.mem_cons_self)
          · rcases List.mem_cons.1 hx with rfl | hx
            · rfl
            · exact absurd (by rw [hda, ← hxa]; exact List.mem_map_of_mem hx) hn1
        · rename_i ha
          obtain ⟨l1, l2, l3⟩ := ih l (by omega) g.il
          obtain ⟨r1, r2, r3⟩ := ih r (by omega) g.ir
          have g' := good_subst g l1 l2 r1 r2
          refine ⟨g'.inv, by rw [g'.den, l2, r2], fun hnd x hx hxa => ?_⟩
          rw [Tr.at?, if_neg ha]
          rw [List.map_append, List.map_cons, List.nodup_append, List.nodup_cons] at hnd
          obtain ⟨hnl, ⟨-, hnr⟩, hn2⟩ := hnd
          rcases List.mem_append.1 hx with hx | hx
          · obtain ⟨c, hc1, hc2⟩ := l3 hnl x hx hxa
            exact ⟨c, by rw [hc1]; rfl, hc2⟩
          · rcases List.mem_cons.1 hx with rfl | hx
            · exact absurd hxa ha
            · obtain ⟨c, hc1, hc2⟩ := r3 hnr x hx hxa
              refine ⟨c, ?_, hc2⟩
              rw [at?_none (l.touch a f), hc1]
              · rfl
              · rw [l2]
                intro hm
                exact hn2 a hm a (List.mem_cons_of_mem _ (by rw [← hxa]; exact List.mem_map_of_mem hx)) rfl
    · rename_i hh
      refine ⟨h, rfl, fun _ x hx hxa => absurd ((has_iff a t).2 ?_) hh⟩
      rw [← hxa]
      exact List.mem_map_of_mem hx

end Gpeg.Lazy
