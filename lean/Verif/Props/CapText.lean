import Verif.CapText
import Verif.Props.Iter
import Verif.Props.Listing
/-! # Property C84: what the text of a capture tells -/
namespace Gpeg

/-- A tree of numbers. -/
inductive IdTree
  | mk (id : Int) (below : List IdTree)

mutual
/-- The ids of a capture and of all captures and dummies in it. -/
def Capture.ids : Capture → IdTree
  | .node id _ _ ch => .mk id (Capture.idsL ch)
  | .dummy _ _ ch => .mk 0 (Capture.idsL ch)
/-- The same for lists. -/
def Capture.idsL : List Capture → List IdTree
  | [] => []
  | c :: r => c.ids :: Capture.idsL r
end

/-- What follows the first child. -/
def Capture.textR : List Capture → List Char
  | [] => []
  | c :: r => ',' :: ' ' :: (c.text ++ Capture.textR r)

theorem Capture.textL_cons : ∀ (c : Capture) (r : List Capture), Capture.textL (c :: r) = c.text ++ Capture.textR r
  | c, [] => by simp [Capture.textL, Capture.textR]
  | c, d :: r => by rw [Capture.textL, Capture.textL_cons d r, Capture.textR]

theorem Capture.text_mk (c : Capture) : c.text = '{' :: (numI c.id ++ ',' :: ' ' :: '[' :: (Capture.textL c.children ++ [']', '}'])) := by
  cases c <;> simp [Capture.text, Capture.id, Capture.children]

theorem Capture.ids_mk (c : Capture) : c.ids = .mk c.id (Capture.idsL c.children) := by
  cases c <;> simp [Capture.ids, Capture.id, Capture.children]

theorem numI_comma (n : Int) : ',' ∉ numI n := fun h => by
  rcases numI_digit h with h | h <;> exact absurd h (by decide)

mutual
theorem Capture.text_cut : ∀ (c d : Capture) {u v : List Char}, c.text ++ u = d.text ++ v → c.ids = d.ids ∧ u = v
  | .node i s n ch, d, u, v, h => by
    rw [Capture.text_mk, Capture.text_mk d] at h
    simp only [List.cons_append, List.append_assoc, List.cons.injEq, true_and, List.nil_append] at h
    obtain ⟨h1, h2⟩ := cut_first (numI_comma _) (numI_comma _) h
    simp only [List.cons.injEq, true_and] at h2
    obtain ⟨h3, h4⟩ := Capture.textL_cut ch d.children h2
    rw [Capture.ids_mk, Capture.ids_mk d, numI_inj h1]
    simp only [List.cons.injEq, true_and] at h4
    exact ⟨by rw [← h3]; rfl, h4⟩
  | .dummy s n ch, d, u, v, h => by
    rw [Capture.text_mk, Capture.text_mk d] at h
    simp only [List.cons_append, List.append_assoc, List.cons.injEq, true_and, List.nil_append] at h
    obtain ⟨h1, h2⟩ := cut_first (numI_comma _) (numI_comma _) h
    simp only [List.cons.injEq, true_and] at h2
    obtain ⟨h3, h4⟩ := Capture.textL_cut ch d.children h2
    rw [Capture.ids_mk, Capture.ids_mk d, numI_inj h1]
    simp only [List.cons.injEq, true_and] at h4
    exact ⟨by rw [← h3]; rfl, h4⟩
theorem Capture.textL_cut : ∀ (cs ds : List Capture) {u v : List Char}, Capture.textL cs ++ ']' :: u = Capture.textL ds ++ ']' :: v →
    Capture.idsL cs = Capture.idsL ds ∧ ']' :: u = ']' :: v
  | [], [], u, v, h => ⟨rfl, by simpa [Capture.textL] using h⟩
  | [], d :: ds, u, v, h => by
    rw [Capture.textL_cons, Capture.text_mk] at h
    exact absurd (List.cons.inj h).1 (by decide)
  | c :: cs, [], u, v, h => by
    rw [Capture.textL_cons, Capture.text_mk] at h
    exact absurd (List.cons.inj h).1 (by decide)
  | c :: cs, d :: ds, u, v, h => by
    rw [Capture.textL_cons, Capture.textL_cons, List.append_assoc, List.append_assoc] at h
    obtain ⟨h1, h2⟩ := Capture.text_cut c d h
    obtain ⟨h3, h4⟩ := Capture.textR_cut cs ds h2
    exact ⟨by rw [Capture.idsL, Capture.idsL, h1, h3], h4⟩
theorem Capture.textR_cut : ∀ (cs ds : List Capture) {u v : List Char}, Capture.textR cs ++ ']' :: u = Capture.textR ds ++ ']' :: v →
    Capture.idsL cs = Capture.idsL ds ∧ ']' :: u = ']' :: v
  | [], [], u, v, h => ⟨rfl, by simpa [Capture.textR] using h⟩
  | [], d :: ds, u, v, h => absurd (List.cons.inj h).1 (by decide)
  | c :: cs, [], u, v, h => absurd (List.cons.inj h).1 (by decide)
  | c :: cs, d :: ds, u, v, h => by
    simp only [Capture.textR, List.cons_append, List.cons.injEq, true_and, List.append_assoc] at h
    obtain ⟨h1, h2⟩ := Capture.text_cut c d h
    obtain ⟨h3, h4⟩ := Capture.textR_cut cs ds h2
    exact ⟨by rw [Capture.idsL, Capture.idsL, h1, h3], h4⟩
end

mutual
theorem Capture.text_ids : ∀ (c d : Capture), c.ids = d.ids → c.text = d.text
  | .node i s n ch, d, h => by
    rw [Capture.ids_mk, Capture.ids_mk d] at h
    injection h with h1 h2
    rw [Capture.text_mk, Capture.text_mk d, h1, show (Capture.node i s n ch).children = ch from rfl,
      Capture.textL_ids ch d.children (by simpa only [Capture.children] using h2)]
  | .dummy s n ch, d, h => by
    rw [Capture.ids_mk, Capture.ids_mk d] at h
    injection h with h1 h2
    rw [Capture.text_mk, Capture.text_mk d, h1, show (Capture.dummy s n ch).children = ch from rfl,
      Capture.textL_ids ch d.children (by simpa only [Capture.children] using h2)]
theorem Capture.textL_ids : ∀ (cs ds : List Capture), Capture.idsL cs = Capture.idsL ds → Capture.textL cs = Capture.textL ds
  | [], [], _ => rfl
  | [], _ :: _, h => nomatch h
  | _ :: _, [], h => nomatch h
  | c :: cs, d :: ds, h => by
    simp only [Capture.idsL, List.cons.injEq] at h
    rw [Capture.textL_cons, Capture.textL_cons, Capture.text_ids c d h.1, Capture.textR_ids cs ds h.2]
theorem Capture.textR_ids : ∀ (cs ds : List Capture), Capture.idsL cs = Capture.idsL ds → Capture.textR cs = Capture.textR ds
  | [], [], _ => rfl
  | [], _ :: _, h => nomatch h
  | _ :: _, [], h => nomatch h
  | c :: cs, d :: ds, h => by
    simp only [Capture.idsL, List.cons.injEq] at h
    simp only [Capture.textR, Capture.text_ids c d h.1, Capture.textR_ids cs ds h.2]
end

/-- **C84.** Two captures print alike exactly if they are the same trees of ids, dummies counting as captures with the id 0. -/
theorem C84_string (c d : Capture) : c.text = d.text ↔ c.ids = d.ids :=
  ⟨fun h => (Capture.text_cut c d (u := []) (v := []) (by simpa using h)).1, Capture.text_ids c d⟩

/-- **C84.** No text of a capture is the beginning of another: texts written one after the other are told apart. -/
theorem C84_prefix {c d : Capture} {u v : List Char} (h : c.text ++ u = d.text ++ v) : c.ids = d.ids ∧ u = v :=
  Capture.text_cut c d h

/-- A capture of two captures. -/
def twoCaps : Capture := .node 7 0 4 [.node (-1) 0 1 [], .node 12 1 3 [.node 0 2 0 []]]

example : twoCaps.text = "{7, [{-1, []}, {12, [{0, []}]}]}".toList := by decide +kernel

/-- The same capture with one child in a dummy, as a memoized repetition makes them (`vm/vm.go:386-388`). -/
def twoCapsMemo : Capture := .node 7 0 4 [.dummy 0 1 [.node (-1) 0 1 []], .node 12 1 3 [.node 0 2 0 []]]

example : twoCapsMemo.text = "{7, [{0, [{-1, []}]}, {12, [{0, []}]}]}".toList := by decide +kernel

/-- **C84, the dummies.** The text does not tell the children a client sees (`Child`, `NumChildren`): captures with the same
text have different numbers of children, and captures all of whose children are the same print differently. -/
theorem C84_false : (∃ c d : Capture, c.text = d.text ∧ c.numChildren ≠ d.numChildren) ∧
    ∃ c d : Capture, c.numChildren = d.numChildren ∧ (∀ n, c.child n = d.child n) ∧ c.text ≠ d.text := by
  refine ⟨⟨.node 1 0 2 [.dummy 0 2 [.node 3 0 1 [], .node 4 1 1 []]], .node 1 0 2 [.node 0 0 2 [.node 3 0 1 [], .node 4 1 1 []]],
    by decide +kernel, by decide +kernel⟩, twoCaps, twoCapsMemo, by decide +kernel, ?_, by decide +kernel⟩
  intro n
  rw [C35_child, C35_child, show Capture.flatL twoCaps.children = Capture.flatL twoCapsMemo.children by
    simp [twoCaps, twoCapsMemo, Capture.children, Capture.flatL, Capture.flat]]

end Gpeg
