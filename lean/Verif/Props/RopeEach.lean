import Verif.Props.Rope
/-! # C67: `Each` and `EachLeaf` of the line rope -/
namespace Gpeg.Linerope

/-- Specification of a loop over values that ends when the closure says so: whether it did, and the state. -/
def visit {β σ : Type} (fn : β → σ → Bool × σ) : List β → σ → Bool × σ
  | [], s => (false, s)
  | v :: vs, s => if (fn v s).1 then (true, (fn v s).2) else visit fn vs (fn v s).2

theorem visit_append {β σ : Type} (fn : β → σ → Bool × σ) : ∀ (vs us : List β) (s : σ),
    visit fn (vs ++ us) s = if (visit fn vs s).1 then visit fn vs s else visit fn us (visit fn vs s).2
  | [], us, s => rfl
  | v :: vs, us, s => by
    simp only [List.cons_append, visit]
    split
    · rfl
    · exact visit_append fn vs us _

theorem eachLeaf_visit {σ : Type} (fn : Bytes → σ → Bool × σ) {P : Opts → Prop} : ∀ {r : Rope} {t : Bytes},
    Rope.WF P r t → ∀ s : σ, r.eachLeaf fn s = some (visit fn (leaves r) s)
  | .leaf _ v _ _, t, _, s => by
    simp only [Rope.eachLeaf, leaves, visit]
    split
    · rename_i h; rw [← h]
    · rename_i h
      have h : (fn v s).1 = false := by simpa using h
      rw [← h]
  | .node _ _ _ l r, t, ⟨_, _, _, a, b, h, h1, h2⟩, s => by
    simp only [Rope.eachLeaf, leaves]
    rw [eachLeaf_visit fn h1, visit_append]
    show (if (visit fn (leaves l) s).1 = true then _ else _) = _
    split
    · rename_i h
      have : visit fn (leaves l) s = (true, (visit fn (leaves l) s).2) := by rw [← h]
      rw [this]
      rfl
    · exact eachLeaf_visit fn h2 _

/-- The nodes of a rope, each before those below it, from left to right. -/
def nodes : Rope → List Rope
  | .leaf o v n ll => [.leaf o v n ll]
  | .node o n ll l r => .node o n ll l r :: (nodes l ++ nodes r)
  | .broken _ _ _ _ => []

theorem each_fold {σ : Type} (fn : Rope → σ → σ) {P : Opts → Prop} : ∀ {r : Rope} {t : Bytes},
    Rope.WF P r t → ∀ s : σ, r.each fn s = some ((nodes r).foldl (fun s n => fn n s) s)
  | .leaf _ v _ _, t, _, s => rfl
  | .node _ _ _ l r, t, ⟨_, _, _, a, b, h, h1, h2⟩, s => by
    simp only [Rope.each, nodes, List.foldl_cons, List.foldl_append]
    rw [each_fold fn h1]
    exact each_fold fn h2 _

/-- The text of a leaf. -/
def leafText : Rope → Option Bytes
  | .leaf _ v _ _ => some v
  | _ => none

theorem nodes_leaves {P : Opts → Prop} : ∀ {r : Rope} {t : Bytes}, Rope.WF P r t →
    (nodes r).filterMap leafText = leaves r
  | .leaf _ v _ _, t, _ => rfl
  | .node _ _ _ l r, t, ⟨_, _, _, a, b, h, h1, h2⟩ => by
    simp only [nodes, leaves, List.filterMap_cons, leafText, List.filterMap_append, nodes_leaves h1, nodes_leaves h2]

theorem nodes_wf {P : Opts → Prop} : ∀ {r : Rope} {t : Bytes}, Rope.WF P r t → ∀ n ∈ nodes r,
    ∃ u, Rope.WF P n u ∧ ∃ x y, t = x ++ u ++ y
  | .leaf _ v _ _, t, hw, n, hn => by
    simp only [nodes, List.mem_singleton] at hn
    subst hn
    exact ⟨t, hw, [], [], by simp⟩
  | .node _ _ _ l r, t, hw@⟨_, _, _, a, b, h, h1, h2⟩, n, hn => by
    simp only [nodes, List.mem_cons, List.mem_append] at hn
    rcases hn with rfl | hn | hn
    · exact ⟨t, hw, [], [], by simp⟩
    · obtain ⟨u, hu, x, y, e⟩ := nodes_wf h1 n hn
      exact ⟨u, hu, x, y ++ b, by rw [h, e]; simp⟩
    · obtain ⟨u, hu, x, y, e⟩ := nodes_wf h2 n hn
      exact ⟨u, hu, a ++ x, y, by rw [h, e]; simp⟩

/-- **C67.** On a rope with any history, `EachLeaf` calls the function on pieces that concatenate to the text, in
order, until it returns true; `Each` calls it on the rope first, then on nodes each of which holds a part of the
text and knows its length, and the leaves among them are those of `EachLeaf` in the same order. -/
theorem C67_each (ops : List Op) (ts : List Bytes) (h : textAlg.run [] ops = some ts) :
    ∃ rs, ropeAlg.run [] ops = some rs ∧ rs.length = ts.length ∧
      ∀ (i : Nat) (r : Rope) (t : Bytes), rs[i]? = some r → ts[i]? = some t →
        ∃ (vs : List Bytes) (ns : List Rope), vs.flatten = t ∧ ns.filterMap leafText = vs ∧ ns.head? = some r ∧
          (∀ n ∈ ns, ∃ x u y, t = x ++ u ++ y ∧ n.value = some u ∧ n.len = u.length) ∧
          (∀ (σ : Type) (fn : Bytes → σ → Bool × σ) (s : σ), r.eachLeaf fn s = some (visit fn vs s)) ∧
          ∀ (σ : Type) (fn : Rope → σ → σ) (s : σ), r.each fn s = some (ns.foldl (fun s n => fn n s) s) := by
  obtain ⟨rs, e1, e2⟩ := history (P := fun o => 0 < o.split) (fun _ h => h)
    (fun b o _ h0 => Nat.pos_of_ne_zero h0) h
  refine ⟨rs, e1, e2.length, fun i r t hr ht => ?_⟩
  have hw := e2.get' hr ht
  refine ⟨leaves r, nodes r, (leaves_flatten hw).1, nodes_leaves hw, ?_, ?_, fun σ fn s => eachLeaf_visit fn hw s,
    fun σ fn s => each_fold fn hw s⟩
  · match r, hw with
    | .leaf .., _ => rfl
    | .node .., _ => rfl
  · intro n hn
    obtain ⟨u, hu, x, y, e⟩ := nodes_wf hw n hn
    exact ⟨x, u, y, e, hu.value, hu.len⟩

/-- All leaves, and the leaves up to the first that ends a line. -/
example : ∃ r, ropeAlg.run [] script₁ = some [r] ∧
    r.eachLeaf (fun v (s : List Bytes) => (false, s ++ [v])) [] =
      some (false, [[1], [5], [10, 6], [10, 11], [20], [10, 21]]) ∧
    (r.eachLeaf (fun v (s : Nat) => (v.contains 10, s + v.length)) 0) = some (true, 4) ∧
    r.each (fun _ (s : Nat) => s + 1) 0 = some 11 := ⟨_, rfl, by decide, by decide, by decide⟩

/-! # C68: edits of single bytes -/

/-- `bench/edit.go:12-15` `Edit`. Positions are natural numbers: a negative one makes `Remove` panic. -/
structure Edit where
  start : Nat
  stop : Nat
  text : Bytes
deriving DecidableEq

/-- `bench/edit.go:17-37` `EditToEdits`: the loop over `[Start, End)`, then the loop over the text. -/
def editToEdits (e : Edit) : List Edit :=
  (List.range' e.start (e.stop - e.start)).map (fun _ => ⟨e.start, e.start + 1, []⟩) ++
  (List.range e.text.length).map (fun i => ⟨e.start + i, e.start + i, (e.text.drop i).take 1⟩)

/-- `bench/edit.go:39-47` `ToSingleEdits`. -/
def toSingleEdits : List Edit → List Edit
  | [] => []
  | e :: es => editToEdits e ++ toSingleEdits es

/-- What a client does with an edit (`bench/edit.go:181-182`). -/
def Edit.ops (e : Edit) : List Op := [.remove e.start e.stop, .insert e.start e.text]

/-- Specification of an edit: the part from `start` to `stop` is replaced by the text. -/
def Edit.apply (t : Bytes) (e : Edit) : Option Bytes :=
  if e.start ≤ e.stop ∧ e.stop ≤ t.length then some (t.take e.start ++ e.text ++ t.drop e.stop) else none

theorem apply_ops (t t' : Bytes) (ts : List Bytes) (e : Edit) (ops : List Op) (h : e.apply t = some t') :
    textAlg.run (t :: ts) (e.ops ++ ops) = textAlg.run (t' :: ts) ops := by
  simp only [Edit.apply] at h
  split at h
  · rename_i hc
    simp only [Option.some.injEq] at h
    simp only [Edit.ops, List.cons_append, List.nil_append, Alg.run, Alg.step, textAlg]
    rw [if_pos hc]
    simp only [Option.map_some, Option.bind_eq_bind, Option.bind_some]
    have h1 : (t.take e.start).length = e.start := by rw [List.length_take]; omega
    rw [if_pos (by rw [List.length_append, h1]; omega)]
    simp only [Option.map_some, Option.bind_some]
    rw [List.take_append_of_le_length (by omega), List.take_of_length_le (by omega),
      List.drop_append_of_le_length (by omega), List.drop_of_length_le (by omega), List.nil_append, h]
  · cases h

/-- Removing byte by byte. -/
theorem remove_single (s : Nat) : ∀ (n : Nat) (t : Bytes), s + n ≤ t.length →
    (List.replicate n (⟨s, s + 1, []⟩ : Edit)).foldlM Edit.apply t = some (t.take s ++ t.drop (s + n))
  | 0, t, _ => by simp
  | n + 1, t, h => by
    rw [List.replicate_succ, List.foldlM_cons]
    have e : Edit.apply t ⟨s, s + 1, []⟩ = some (t.take s ++ t.drop (s + 1)) := by
      simp only [Edit.apply]
      rw [if_pos ⟨by omega, by omega⟩]
      simp
    have hl : (t.take s).length = s := by rw [List.length_take]; omega
    rw [e]
    show List.foldlM _ _ _ = _
    rw [remove_single s n _ (by rw [List.length_append, hl, List.length_drop]; omega)]
    rw [List.take_append_of_le_length (by omega), List.take_of_length_le (by omega), List.drop_append, hl]
    rw [List.drop_of_length_le (by omega), List.nil_append, List.drop_drop]
    congr 3
    omega

/-- Inserting byte by byte. -/
theorem insert_single (s : Nat) (v : Bytes) (t : Bytes) (h : s ≤ t.length) : ∀ n : Nat, n ≤ v.length →
    ((List.range n).map fun i => (⟨s + i, s + i, (v.drop i).take 1⟩ : Edit)).foldlM Edit.apply t =
      some (t.take s ++ v.take n ++ t.drop s)
  | 0, _ => by simp
  | n + 1, hn => by
    rw [List.range_succ, List.map_append, List.foldlM_append, insert_single s v t h n (by omega)]
    have hl : (t.take s).length = s := by rw [List.length_take]; omega
    have hv : (v.take n).length = n := by rw [List.length_take]; omega
    have hlv : (t.take s ++ v.take n).length = s + n := by rw [List.length_append, hl, hv]
    show Option.bind (some _) _ = _
    rw [Option.bind_some]
    simp only [List.map_cons, List.map_nil, List.foldlM_cons, List.foldlM_nil]
    have e : Edit.apply (t.take s ++ v.take n ++ t.drop s) ⟨s + n, s + n, (v.drop n).take 1⟩ =
        some (t.take s ++ v.take (n + 1) ++ t.drop s) := by
      simp only [Edit.apply]
      rw [if_pos ⟨Nat.le_refl _, by rw [List.length_append, hlv]; omega⟩]
      rw [List.take_append_of_le_length (by omega), List.take_of_length_le (by omega), List.drop_append, hlv,
        List.drop_of_length_le (Nat.le_of_eq hlv), Nat.sub_self, List.drop_zero, List.nil_append]
      congr 2
      rw [List.append_assoc, List.take_add]
    rw [e]
    rfl

theorem editToEdits_apply {t t' : Bytes} {e : Edit} (h : e.apply t = some t') :
    (editToEdits e).foldlM Edit.apply t = some t' := by
  simp only [Edit.apply] at h
  split at h
  · rename_i hc
    simp only [Option.some.injEq] at h
    have h1 : (List.range' e.start (e.stop - e.start)).map (fun _ => (⟨e.start, e.start + 1, []⟩ : Edit)) =
        List.replicate (e.stop - e.start) ⟨e.start, e.start + 1, []⟩ := by
      rw [List.map_const', List.length_range']
    rw [editToEdits, List.foldlM_append, h1, remove_single _ _ _ (by omega)]
    have hl : (t.take e.start).length = e.start := by rw [List.length_take]; omega
    show List.foldlM _ _ _ = _
    rw [insert_single e.start e.text _ (by rw [List.length_append, hl]; omega) e.text.length (Nat.le_refl _)]
    rw [List.take_append_of_le_length (Nat.le_of_eq hl.symm), List.take_of_length_le (Nat.le_of_eq hl), List.drop_append,
      List.drop_of_length_le (Nat.le_of_eq hl), hl, Nat.sub_self, List.drop_zero, List.nil_append, List.take_length,
      ← h, show e.start + (e.stop - e.start) = e.stop by omega]
  · cases h

theorem toSingleEdits_apply : ∀ (es : List Edit) {t t' : Bytes}, es.foldlM Edit.apply t = some t' →
    (toSingleEdits es).foldlM Edit.apply t = some t'
  | [], _, _, h => h
  | e :: es, t, t', h => by
    rw [List.foldlM_cons] at h
    cases he : e.apply t with
    | none => rw [he] at h; cases h
    | some u =>
      rw [he] at h
      rw [toSingleEdits, List.foldlM_append, editToEdits_apply he]
      exact toSingleEdits_apply es h

theorem apply_all_ops : ∀ (es : List Edit) (t t' : Bytes) (ts : List Bytes), es.foldlM Edit.apply t = some t' →
    textAlg.run (t :: ts) (es.flatMap Edit.ops) = some (t' :: ts)
  | [], t, t', ts, h => by
    simp only [List.foldlM_nil, Option.pure_def, Option.some.injEq] at h
    subst h
    rfl
  | e :: es, t, t', ts, h => by
    rw [List.foldlM_cons] at h
    cases he : e.apply t with
    | none => rw [he] at h; cases h
    | some u =>
      rw [he] at h
      rw [List.flatMap_cons, apply_ops t u ts e _ he]
      exact apply_all_ops es u t' ts h

/-- **C68.** Edits in range, replaced by `ToSingleEdits`: each of the new edits removes or adds exactly one byte
and is in range when its turn comes, and together they make the same text, on byte lists and on a rope made with
any options. -/
theorem C68_single_edits (es : List Edit) (t t' : Bytes) (h : es.foldlM Edit.apply t = some t') :
    (toSingleEdits es).foldlM Edit.apply t = some t' ∧
    (∀ e ∈ toSingleEdits es, e.stop - e.start + e.text.length = 1) ∧
    (toSingleEdits es).length = (es.map fun e => e.stop - e.start + e.text.length).sum ∧
    ∀ o : Opts, o.split ≠ 0 → ∃ r, ropeAlg.run [] (.new t o :: (toSingleEdits es).flatMap Edit.ops) = some [r] ∧
      r.value = some t' ∧ r.len = t'.length := by
  refine ⟨toSingleEdits_apply es h, ?_, ?_, ?_⟩
  · clear h
    induction es with
    | nil => intro e he; cases he
    | cons e0 es ih =>
      intro e he
      rcases List.mem_append.1 he with he | he
      · rcases List.mem_append.1 he with he | he
        · obtain ⟨_, -, rfl⟩ := List.mem_map.1 he
          simp
        · obtain ⟨i, hi, rfl⟩ := List.mem_map.1 he
          have := List.mem_range.1 hi
          simp only [List.length_take, List.length_drop]
          omega
      · exact ih e he
  · clear h
    induction es with
    | nil => rfl
    | cons e0 es ih =>
      simp only [toSingleEdits, editToEdits, List.length_append, ih, List.map_cons, List.sum_cons, List.length_map,
        List.length_range', List.length_range]
  · intro o ho
    have hr : textAlg.run [] (.new t o :: (toSingleEdits es).flatMap Edit.ops) = some [t'] := by
      simp only [Alg.run, Alg.step, textAlg]
      rw [if_neg ho]
      exact apply_all_ops _ t t' [] (toSingleEdits_apply es h)
    obtain ⟨rs, e1, e2, e3⟩ := C36_edits _ _ hr
    match rs, e1, e2, e3 with
    | [], _, e2, _ => cases e2
    | [r], e1, e2, e3 =>
      simp only [List.map_cons, List.map_nil, List.cons.injEq, and_true] at e2 e3
      exact ⟨r, e1, e2, e3⟩
    | _ :: _ :: _, _, e2, _ => simp at e2

/-- Two edits and the edits that replace them. -/
example : ([⟨1, 3, [7, 8, 9]⟩, ⟨5, 6, []⟩] : List Edit).foldlM Edit.apply [0, 1, 2, 3, 4, 5] = some [0, 7, 8, 9, 3, 5] ∧
    toSingleEdits [⟨1, 3, [7, 8, 9]⟩, ⟨5, 6, []⟩] =
      [⟨1, 2, []⟩, ⟨1, 2, []⟩, ⟨1, 1, [7]⟩, ⟨2, 2, [8]⟩, ⟨3, 3, [9]⟩, ⟨5, 6, []⟩] := by decide

end Gpeg.Linerope
