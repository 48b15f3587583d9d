import Verif.Rope
/-! # Ropes represent texts: the invariant and the edits -/
namespace Gpeg.Linerope
namespace Rope

/-- The rope `r` is well formed and holds the text `t`; `P` holds of the options of every node. -/
def WF (P : Opts → Prop) : Rope → Bytes → Prop
  | leaf o v n ll, t => P o ∧ v = t ∧ n = v.length ∧ ll = llen v o.sep
  | node o n ll l r, t =>
    P o ∧ n = l.len + r.len ∧ ll = addlocs l.ll r.ll ∧ ∃ a b, t = a ++ b ∧ WF P l a ∧ WF P r b
  | broken _ _ _ _, _ => False

/-- A list of well formed ropes holding `t` together. -/
def WFL (P : Opts → Prop) : List Rope → Bytes → Prop
  | [], t => t = []
  | n :: ns, t => ∃ a b, t = a ++ b ∧ WF P n a ∧ WFL P ns b

variable {P : Opts → Prop}

theorem WF.len : ∀ {r : Rope} {t : Bytes}, WF P r t → r.len = t.length
  | leaf o v n ll, t, ⟨_, h1, h2, _⟩ => by subst h1; exact h2
  | node o n ll l r, t, ⟨_, h1, _, a, b, h2, h3, h4⟩ => by
    show n = _
    rw [h1, h3.len, h4.len, h2, List.length_append]

theorem WF.value : ∀ {r : Rope} {t : Bytes}, WF P r t → r.value = some t
  | leaf o v n ll, t, ⟨_, h1, _, _⟩ => by subst h1; rfl
  | node o n ll l r, t, ⟨_, _, _, a, b, h2, h3, h4⟩ => by
    simp only [Rope.value, h3.value, h4.value, h2]; rfl

theorem WF.opts : ∀ {r : Rope} {t : Bytes}, WF P r t → P r.opts
  | leaf _ _ _ _, _, h => h.1
  | node _ _ _ _ _, _, h => h.1

theorem wf_mkLeaf {o : Opts} (h : P o) (v : Bytes) : WF P (mkLeaf o v) v := ⟨h, rfl, rfl, rfl⟩

theorem wf_mkNode {o : Opts} (h : P o) {l r : Rope} {a b : Bytes} (hl : WF P l a)
    (hr : WF P r b) : WF P (mkNode o l r) (a ++ b) := ⟨h, rfl, rfl, a, b, rfl, hl, hr⟩

theorem collapse_wf {n : Rope} {t : Bytes} (h : WF P n t) :
    ∃ n', collapse n = some n' ∧ WF P n' t := by
  unfold collapse
  split
  · rw [h.value]
    exact ⟨_, rfl, wf_mkLeaf h.opts t⟩
  · exact ⟨_, rfl, h⟩

theorem join_wf {l r : Rope} {a b : Bytes} (hl : WF P l a) (hr : WF P r b) :
    ∃ n, join l r = some n ∧ WF P n (a ++ b) :=
  collapse_wf (wf_mkNode hl.opts hl hr)

theorem joinLast_wf : ∀ {ns : List Rope} {t : Bytes}, WFL P ns t → 2 ≤ ns.length →
    ∃ ns', joinLast ns = some ns' ∧ WFL P ns' t ∧ ns'.length + 1 = ns.length
  | [a, b], t, ⟨x, y, h1, h2, u, v, h3, h4, h5⟩, _ => by
    obtain ⟨n, hn, hw⟩ := join_wf h2 h4
    have h5 : v = [] := h5
    refine ⟨[n], ?_, ⟨x ++ u, [], ?_, hw, rfl⟩, rfl⟩
    · simp only [joinLast, hn]; rfl
    · rw [h1, h3, h5]; simp
  | a :: b :: c :: rest, t, ⟨x, y, h1, h2, h3⟩, _ => by
    obtain ⟨ns', e1, e2, e3⟩ := joinLast_wf (ns := b :: c :: rest) h3 (by simp)
    refine ⟨a :: ns', ?_, ⟨x, y, h1, h2, e2⟩, ?_⟩
    · show (do return a :: (← joinLast (b :: c :: rest)) : Option (List Rope)) = _
      rw [e1]; rfl
    · simp only [List.length_cons] at e3 ⊢; omega

theorem pairUp_wf : ∀ {ns : List Rope} {t : Bytes}, WFL P ns t → ns.length % 2 = 0 →
    ∃ ns', pairUp ns = some ns' ∧ WFL P ns' t ∧ ns'.length = ns.length / 2
  | [], _, h, _ => ⟨[], rfl, h, rfl⟩
  | [_], _, _, h => by simp at h
  | a :: b :: rest, t, ⟨x, y, h1, h2, u, v, h3, h4, h5⟩, he => by
    obtain ⟨n, hn, hw⟩ := join_wf h2 h4
    obtain ⟨ns', e1, e2, e3⟩ := pairUp_wf h5 (by simp only [List.length_cons] at he; omega)
    refine ⟨n :: ns', ?_, ⟨x ++ u, v, ?_, hw, e2⟩, ?_⟩
    · simp only [pairUp, hn, e1]; rfl
    · rw [h1, h3, List.append_assoc]
    · simp only [List.length_cons, e3]; omega

theorem buildF_wf : ∀ (k : Nat) {ns : List Rope} {t : Bytes}, WFL P ns t → ns ≠ [] →
    ns.length ≤ k → ∃ n, buildF k ns = some n ∧ WF P n t
  | _, [n], t, ⟨a, b, h1, h2, h3⟩, _, _ => by
    have h3 : b = [] := h3
    refine ⟨n, by simp [buildF], ?_⟩
    rw [h1, h3, List.append_nil]; exact h2
  | 0, [], _, _, h, _ => absurd rfl h
  | 0, _ :: _ :: _, _, _, _, h => by simp at h
  | k + 1, [], _, _, h, _ => absurd rfl h
  | k + 1, a :: b :: rest, t, hw, _, hk => by
    have hb : buildF (k + 1) (a :: b :: rest) =
      (if (a :: b :: rest).length % 2 ≠ 0 then joinLast (a :: b :: rest)
        else some (a :: b :: rest)).bind (fun ns => do buildF k (← pairUp ns)) := rfl
    rw [hb]
    have : ∃ ns', (if (a :: b :: rest).length % 2 ≠ 0 then joinLast (a :: b :: rest)
        else some (a :: b :: rest)) = some ns' ∧ WFL P ns' t ∧ ns'.length % 2 = 0 ∧ 2 ≤ ns'.length ∧
        ns'.length ≤ (a :: b :: rest).length := by
      split
      · rename_i ho
        obtain ⟨ns', e1, e2, e3⟩ := joinLast_wf hw (by simp)
        refine ⟨ns', e1, e2, by omega, ?_, by omega⟩
        simp only [List.length_cons] at e3 ho
        omega
      · rename_i ho
        exact ⟨_, rfl, hw, by omega, by simp, Nat.le_refl _⟩
    obtain ⟨ns', e1, e2, e3, e4, e5⟩ := this
    obtain ⟨ms, f1, f2, f3⟩ := pairUp_wf e2 e3
    rw [e1]
    show ∃ n, (do buildF k (← pairUp ns')) = some n ∧ _
    rw [f1]
    refine buildF_wf k f2 ?_ (by omega)
    rintro rfl
    simp at f3; omega

theorem WFL.append : ∀ {ns ms : List Rope} {t u : Bytes}, WFL P ns t → WFL P ms u →
    WFL P (ns ++ ms) (t ++ u)
  | [], ms, t, u, h, hu => by have h : t = [] := h; subst h; exact hu
  | n :: ns, ms, t, u, ⟨a, b, h1, h2, h3⟩, hu =>
    ⟨a, b ++ u, by rw [h1, List.append_assoc], h2, h3.append hu⟩

theorem chunks_wf {o : Opts} (h : P o) (b : Bytes) : ∀ n : Nat,
    WFL P ((List.range n).map (chunk o b)) (b.take (n * o.split))
  | 0 => by show _ = _; simp
  | n + 1 => by
    rw [List.range_succ, List.map_append, Nat.succ_mul, List.take_add]
    exact (chunks_wf h b n).append ⟨_, [], (List.append_nil _).symm, wf_mkLeaf h _, rfl⟩

theorem newWithOpts_wf {o : Opts} (h : P o) (hs : 0 < o.split) (b : Bytes) :
    ∃ r, newWithOpts b o = some r ∧ WF P r b := by
  unfold newWithOpts
  rw [if_neg (by omega)]
  refine buildF_wf _ ?_ (by simp) (Nat.le_refl _)
  have h1 := (chunks_wf h b (b.length / o.split)).append
    (ms := [rest o b]) (u := b.drop (b.length / o.split * o.split))
    ⟨_, [], (List.append_nil _).symm, wf_mkLeaf h _, rfl⟩
  rwa [List.take_append_drop] at h1

theorem cut_nat {b : Bytes} {lo hi : Nat} (h : lo ≤ hi) (h' : hi ≤ b.length) :
    cut b lo hi = some ((b.take hi).drop lo) := by
  unfold cut
  rw [if_pos (by omega)]
  simp

theorem adjust_wf (hP : ∀ o, P o → 0 < o.split) : ∀ {n : Rope} {t : Bytes}, WF P n t →
    ∃ n', adjust n = some n' ∧ WF P n' t
  | leaf o v n ll, t, h => by
    obtain ⟨h1, h2, h3, h4⟩ := h
    subst h2
    simp only [adjust]
    split
    · have c1 := cut_nat (b := v) (lo := 0) (hi := n / 2) (Nat.zero_le _) (by omega)
      have c2 := cut_nat (b := v) (lo := n / 2) (hi := v.length) (by omega) (Nat.le_refl _)
      obtain ⟨l, hl, wl⟩ := newWithOpts_wf h1 (hP o h1) ((v.take (n / 2)).drop 0)
      obtain ⟨r, hr, wr⟩ := newWithOpts_wf h1 (hP o h1) ((v.take v.length).drop (n / 2))
      have c1' : cut v 0 (n / 2 : Nat) = _ := c1
      rw [c1', c2]
      show ∃ n', (do
        let l ← newWithOpts ((v.take (n / 2)).drop 0) o
        let r ← newWithOpts ((v.take v.length).drop (n / 2)) o
        return mkNode o l r) = some n' ∧ _
      rw [hl, hr]
      refine ⟨_, rfl, ?_⟩
      have := wf_mkNode h1 wl wr
      rwa [List.drop_zero, List.take_length, List.take_append_drop] at this
    · exact ⟨_, rfl, h1, rfl, h3, h4⟩
  | node o n ll l r, t, h => collapse_wf h

/-! ## Insert and remove -/

theorem insert_wf (hP : ∀ o, P o → 0 < o.split) (vs : Bytes) : ∀ {r : Rope} {t : Bytes} (p : Nat),
    WF P r t → p ≤ t.length →
    ∃ r', r.insert p vs = some r' ∧ WF P r' (t.take p ++ vs ++ t.drop p)
  | leaf o v n ll, t, p, ⟨h1, h2, h3, h4⟩, hp => by
    subst h2
    have : insertB v p vs = some (v.take p ++ vs ++ v.drop p) := by
      unfold insertB; rw [if_pos (by omega)]; simp
    simp only [Rope.insert, this]
    exact adjust_wf hP (wf_mkLeaf h1 _)
  | node o n ll l r, t, p, ⟨h1, h2, h3, a, b, h4, h5, h6⟩, hp => by
    simp only [Rope.insert]
    have hl := h5.len
    rw [h4, List.length_append] at hp
    by_cases h : p < l.len
    · rw [if_pos (by omega)]
      obtain ⟨l', e1, e2⟩ := insert_wf hP vs p h5 (by omega)
      rw [e1]
      obtain ⟨n', f1, f2⟩ := adjust_wf hP (wf_mkNode h1 e2 h6)
      refine ⟨n', f1, ?_⟩
      rw [h4, List.take_append_of_le_length (by omega), List.drop_append_of_le_length (by omega)]
      simpa [List.append_assoc] using f2
    · rw [if_neg (by omega)]
      have : (p : Int) - l.len = ((p - l.len : Nat) : Int) := by omega
      rw [this]
      obtain ⟨r', e1, e2⟩ := insert_wf hP vs (p - l.len) h6 (by omega)
      rw [e1]
      obtain ⟨n', f1, f2⟩ := adjust_wf hP (wf_mkNode h1 h5 e2)
      refine ⟨n', f1, ?_⟩
      rw [h4, List.take_append, List.drop_append, List.take_of_length_le (by omega),
        List.drop_of_length_le (l := a) (by omega), ← hl]
      simpa [List.append_assoc] using f2

theorem remove_append (a b : Bytes) {s e : Nat} (h : s ≤ e) :
    (a ++ b).take s ++ (a ++ b).drop e =
      (a.take s ++ a.drop e) ++ (b.take (s - a.length) ++ b.drop (e - a.length)) := by
  rw [List.take_append, List.drop_append]
  by_cases hs : s ≤ a.length
  · rw [Nat.sub_eq_zero_of_le hs]; simp
  · rw [List.drop_of_length_le (l := a) (by omega)]; simp

theorem remove_wf (hP : ∀ o, P o → 0 < o.split) : ∀ {r : Rope} {t : Bytes} (s e : Nat),
    WF P r t → s ≤ e → e ≤ t.length →
    ∃ r', r.remove s e = some r' ∧ WF P r' (t.take s ++ t.drop e)
  | leaf o v n ll, t, s, e, ⟨h1, h2, h3, h4⟩, hse, he => by
    subst h2
    have : removeB v s e = some (v.take s ++ v.drop e) := by
      unfold removeB; rw [if_pos (by omega)]; simp
    simp only [Rope.remove, this]
    exact adjust_wf hP (wf_mkLeaf h1 _)
  | node o n ll l r, t, s, e, ⟨h1, h2, h3, a, b, h4, h5, h6⟩, hse, he => by
    simp only [Rope.remove]
    have hl := h5.len
    have hr := h6.len
    rw [h4, List.length_append] at he
    have L : ∃ l', (if min (s : Int) l.len < l.len then l.remove (min (s : Int) l.len)
        (min (e : Int) l.len) else some l) = some l' ∧ WF P l' (a.take s ++ a.drop e) := by
      by_cases h : s < l.len
      · rw [if_pos (by omega)]
        have i1 : min (s : Int) l.len = (s : Nat) := by omega
        have i2 : min (e : Int) l.len = ((min e l.len : Nat) : Int) := by omega
        rw [i1, i2]
        have := remove_wf hP s (min e l.len) h5 (by omega) (by omega)
        have hd : a.drop (min e l.len) = a.drop e := by
          by_cases hh : e ≤ l.len
          · rw [Nat.min_eq_left hh]
          · rw [List.drop_of_length_le (by omega), List.drop_of_length_le (by omega)]
        rwa [hd] at this
      · rw [if_neg (by omega)]
        refine ⟨l, rfl, ?_⟩
        rw [List.take_of_length_le (by omega), List.drop_of_length_le (by omega), List.append_nil]
        exact h5
    have R : ∃ r', (if max 0 (min ((e : Int) - l.len) r.len) > 0 then
        r.remove (max 0 (min ((s : Int) - l.len) r.len)) (max 0 (min ((e : Int) - l.len) r.len))
        else some r) = some r' ∧ WF P r' (b.take (s - a.length) ++ b.drop (e - a.length)) := by
      by_cases h : max 0 (min ((e : Int) - l.len) r.len) > 0
      · rw [if_pos h]
        have i1 : max 0 (min ((s : Int) - l.len) r.len) = ((s - a.length : Nat) : Int) := by omega
        have i2 : max 0 (min ((e : Int) - l.len) r.len) = ((e - a.length : Nat) : Int) := by omega
        rw [i1, i2]
        exact remove_wf hP _ _ h6 (by omega) (by omega)
      · rw [if_neg h]
        refine ⟨r, rfl, ?_⟩
        by_cases hb : e ≤ a.length
        · rw [Nat.sub_eq_zero_of_le hb, Nat.sub_eq_zero_of_le (by omega)]
          simpa using h6
        · have : b = [] := List.length_eq_zero_iff.1 (by omega)
          subst this
          simpa using h6
    obtain ⟨l', e1, e2⟩ := L
    obtain ⟨r', f1, f2⟩ := R
    rw [e1, f1, h4, remove_append _ _ hse]
    exact adjust_wf hP (wf_mkNode h1 e2 f2)

/-! ## Slices -/

theorem slice_append (a b : Bytes) (s e : Nat) :
    ((a ++ b).take e).drop s =
      (a.take e).drop s ++ (b.take (e - a.length)).drop (s - a.length) := by
  rw [List.take_append, List.drop_append, List.length_take]
  by_cases h : a.length ≤ e
  · rw [Nat.min_eq_right h]
  · rw [Nat.sub_eq_zero_of_le (by omega : e ≤ a.length)]; simp

theorem slice_wf : ∀ {r : Rope} {t : Bytes} (s e : Nat), WF P r t → e ≤ t.length →
    r.slice s e = some ((t.take e).drop s)
  | leaf o v n ll, t, s, e, ⟨h1, h2, h3, h4⟩, he => by
    subst h2
    simp only [Rope.slice]
    by_cases h : (s : Int) ≥ e
    · rw [if_pos h, List.drop_of_length_le]
      rw [List.length_take]; omega
    · rw [if_neg h]
      exact cut_nat (by omega) he
  | node o n ll l r, t, s, e, ⟨h1, h2, h3, a, b, h4, h5, h6⟩, he => by
    simp only [Rope.slice]
    have hl := h5.len
    have hr := h6.len
    rw [h4, List.length_append] at he
    by_cases h : (s : Int) ≥ e
    · rw [if_pos h, List.drop_of_length_le]
      rw [List.length_take]; omega
    rw [if_neg h, h4, slice_append]
    have i1 : min (s : Int) l.len = ((min s l.len : Nat) : Int) := by omega
    have i2 : min (e : Int) l.len = ((min e l.len : Nat) : Int) := by omega
    have i3 : max 0 (min ((s : Int) - l.len) r.len) = ((s - a.length : Nat) : Int) := by omega
    have i4 : max 0 (min ((e : Int) - l.len) r.len) = ((e - a.length : Nat) : Int) := by omega
    rw [i1, i2, i3, i4]
    have A := slice_wf (min s l.len) (min e l.len) h5 (by omega)
    have B := slice_wf (s - a.length) (e - a.length) h6 (by omega)
    have hA : (a.take (min e l.len)).drop (min s l.len) = (a.take e).drop s := by
      rw [hl]
      rw [← List.take_eq_take_min]
      by_cases hs : s ≤ a.length
      · rw [Nat.min_eq_left hs]
      · rw [List.drop_of_length_le, List.drop_of_length_le] <;> rw [List.length_take] <;> omega
    rw [hA] at A
    have eA : min s l.len = min e l.len → (a.take e).drop s = [] := by
      intro hq
      rw [List.drop_of_length_le]
      rw [List.length_take]; omega
    have eB : s - a.length = e - a.length → (b.take (e - a.length)).drop (s - a.length) = [] := by
      intro hq
      rw [List.drop_of_length_le]
      rw [List.length_take]; omega
    by_cases c1 : min s l.len = min e l.len
    · by_cases c2 : s - a.length = e - a.length
      · rw [if_neg (by omega), if_neg (by omega), eA c1, eB c2]; rfl
      · rw [if_neg (by omega), if_pos (by omega), B, eA c1]; rfl
    · by_cases c2 : s - a.length = e - a.length
      · rw [if_pos (by omega), if_neg (by omega), A, eB c2, List.append_nil]
      · rw [if_pos (by omega), if_pos (by omega), A, B]; rfl

/-! ## Split and join -/

theorem splitAt_wf (hP : ∀ o, P o → 0 < o.split) : ∀ {r : Rope} {t : Bytes} (i : Nat), WF P r t →
    i ≤ t.length → ∃ x y, r.splitAt i = some (x, y) ∧ WF P x (t.take i) ∧ WF P y (t.drop i)
  | leaf o v n ll, t, i, ⟨h1, h2, h3, h4⟩, hi => by
    subst h2
    obtain ⟨x, ex, wx⟩ := newWithOpts_wf h1 (hP o h1) (v.take i)
    obtain ⟨y, ey, wy⟩ := newWithOpts_wf h1 (hP o h1) (v.drop i)
    have c1 := cut_nat (b := v) (lo := 0) (hi := i) (Nat.zero_le _) hi
    have c2 := cut_nat (b := v) (lo := i) (hi := v.length) hi (Nat.le_refl _)
    rw [List.drop_zero] at c1
    rw [List.take_length] at c2
    have c1' : cut v 0 i = some (v.take i) := c1
    refine ⟨x, y, ?_, wx, wy⟩
    simp only [Rope.splitAt, c1', c2]
    show (do return (← newWithOpts (v.take i) o, ← newWithOpts (v.drop i) o)) = _
    rw [ex, ey]; rfl
  | node o n ll l r, t, i, ⟨h1, h2, h3, a, b, h4, h5, h6⟩, hi => by
    simp only [Rope.splitAt]
    have hl := h5.len
    rw [h4, List.length_append] at hi
    rw [h4]
    by_cases c : i = l.len
    · rw [if_pos (by omega)]
      refine ⟨l, r, rfl, ?_, ?_⟩
      · rw [List.take_left' (by omega)]; exact h5
      · rw [List.drop_left' (by omega)]; exact h6
    rw [if_neg (by omega)]
    by_cases c' : i < l.len
    · rw [if_pos (by omega)]
      obtain ⟨x, y, e1, e2, e3⟩ := splitAt_wf hP i h5 (by omega)
      obtain ⟨z, f1, f2⟩ := join_wf e3 h6
      rw [e1]
      show ∃ x' y', (do return (x, ← join y r)) = some (x', y') ∧ _
      rw [f1]
      refine ⟨x, z, rfl, ?_, ?_⟩
      · rwa [List.take_append_of_le_length (by omega)]
      · rwa [List.drop_append_of_le_length (by omega)]
    · rw [if_neg (by omega)]
      have : (i : Int) - l.len = ((i - l.len : Nat) : Int) := by omega
      rw [this]
      obtain ⟨x, y, e1, e2, e3⟩ := splitAt_wf hP (i - l.len) h6 (by omega)
      obtain ⟨z, f1, f2⟩ := join_wf h5 e2
      rw [e1]
      show ∃ x' y', (do return (← join l x, y)) = some (x', y') ∧ _
      rw [f1]
      refine ⟨z, y, rfl, ?_, ?_⟩
      · rw [List.take_append, List.take_of_length_le (by omega), ← hl]; exact f2
      · rw [List.drop_append, List.drop_of_length_le (l := a) (by omega), List.nil_append, ← hl]
        exact e3

theorem foldlM_join_wf : ∀ {more : List Rope} {s : Rope} {t u : Bytes},
    WF P s t → WFL P more u →
    ∃ n, more.foldlM (fun s n => join s n) s = some n ∧ WF P n (t ++ u)
  | [], s, t, u, hs, h => by
    have h : u = [] := h
    exact ⟨s, rfl, by simpa [h] using hs⟩
  | m :: more, s, t, u, hs, ⟨a, b, h1, h2, h3⟩ => by
    obtain ⟨n, e1, e2⟩ := join_wf hs h2
    obtain ⟨n', f1, f2⟩ := foldlM_join_wf e2 h3
    refine ⟨n', ?_, by simpa [h1, List.append_assoc] using f2⟩
    rw [List.foldlM_cons, e1]; exact f1

theorem joinAll_wf {a b : Rope} {x y u : Bytes} {more : List Rope}
    (ha : WF P a x) (hb : WF P b y) (hm : WFL P more u) :
    ∃ n, joinAll a b more = some n ∧ WF P n (x ++ y ++ u) := by
  obtain ⟨n, e1, e2⟩ := join_wf ha hb
  obtain ⟨n', f1, f2⟩ := foldlM_join_wf e2 hm
  exact ⟨n', by unfold joinAll; rw [e1]; exact f1, f2⟩

end Rope
end Gpeg.Linerope
