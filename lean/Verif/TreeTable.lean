import Verif.Vm
import Verif.Props.LazyLog
/-!
# Model of `memo/tree.go`

`TreeTable` on top of the lazy interval tree. A stored entry (`memo/entry.go:12-18`) keeps its captures with
the positions they had when it was stored, and the place where it was stored: `setMEnt`
(`memo/capture.go:118-129`) makes the offsets of captures relative to the entry, and `Start`
(`memo/capture.go:95-100`) adds the current position of the entry. Simplifications:

* a capture that belongs to several entries is relative to the first of them; in the model it is relative to
  each. They differ if the entries are moved differently.
* slices are values here, see `Verif/Slice.lean`.
* the lock is not modelled (no concurrency).
-/
namespace Gpeg

mutual
/-- A capture whose entry moved from `a` to `b` (`memo/capture.go:95-100` `Start`). -/
def Capture.shift (a b : Nat) : Capture → Capture
  | .node id s n ch => .node id (s + b - a) n (Capture.shiftL a b ch)
  | .dummy s n ch => .dummy (s + b - a) n (Capture.shiftL a b ch)
/-- `Capture.shift` of all elements. -/
def Capture.shiftL (a b : Nat) : List Capture → List Capture
  | [] => []
  | c :: cs => c.shift a b :: Capture.shiftL a b cs
end

mutual
theorem Capture.shift_self (a : Nat) : ∀ c : Capture, c.shift a a = c
  | .node id s n ch => by
    have := Capture.shiftL_self a ch
    simp [Capture.shift, this]
  | .dummy s n ch => by
    have := Capture.shiftL_self a ch
    simp [Capture.shift, this]
theorem Capture.shiftL_self (a : Nat) : ∀ cs : List Capture, Capture.shiftL a a cs = cs
  | [] => by simp [Capture.shiftL]
  | c :: cs => by
    have h1 := Capture.shift_self a c
    have h2 := Capture.shiftL_self a cs
    simp [Capture.shiftL, h1, h2]
end

/-- `memo/entry.go:12-18` `Entry`, with the place it was stored at. -/
structure TEnt where
  start : Nat
  ent : MEntry
deriving Inhabited

/-- The entry as seen when it is at `pos`. -/
def TEnt.at (e : TEnt) (pos : Nat) : MEntry :=
  { e.ent with captures := Capture.shiftL e.start pos e.ent.captures }

/-- `memo/tree.go:12-16` `TreeTable`. -/
structure TreeTable where
  map : LazyLog.Tree TEnt := {}
  threshold : Int

namespace TreeTable

/-- `memo/tree.go:18-23` `NewTreeTable`. -/
def new (threshold : Int) : TreeTable := { threshold := threshold }

/-- `memo/tree.go:25-31` `Get`. -/
def get (T : TreeTable) (id : Int) (pos : Nat) : Option MEntry × TreeTable :=
  let r := T.map.findLargest id pos
  (r.2.map fun e => e.at pos, { T with map := r.1 })

/-- `memo/tree.go:33-49` `Put`; `length = none` is `-1`. -/
def put (T : TreeTable) (id : Int) (start : Nat) (length : Option Nat) (examined count : Nat)
    (captures : List Capture) : TreeTable :=
  if (examined : Int) < T.threshold ∨ length = some 0 then T
  else
    let examined := max examined (length.getD 0)
    let e : TEnt := ⟨start, ⟨length, examined, count, captures⟩⟩
    { T with map := (T.map.add id start (start + examined) e).1 }

/-- `memo/tree.go:51-61` `ApplyEdit`. -/
def applyEdit (T : TreeTable) (e : Edit) : TreeTable :=
  let low : Int := e.start
  let high : Int := if e.start = e.stop then e.start + 1 else e.stop
  let amt : Int := e.len - ((e.stop : Int) - e.start)
  { T with map := T.map.removeAndShift low high amt }

end TreeTable

/-- `TreeTable` as a `memo.Table`. -/
def treeTable : TableOps TreeTable where
  get := TreeTable.get
  put := TreeTable.put
  applyEdit := TreeTable.applyEdit

open LazyLog

/-- The table is in a state reached by additions, look-ups and edits, all but the first of which (`b` tells if
there was one) keep or increase the length; everything in it satisfies `Q`. -/
def TabInv (b : Bool) (T : TreeTable) (Q : Slot TEnt → Prop) : Prop :=
  ∃ live, Hist b ⟨T.map, live⟩ ∧ ∀ s ∈ live, Q s.1

theorem tabInv_new (th : Int) (Q : Slot TEnt → Prop) : TabInv false (TreeTable.new th) Q :=
  ⟨[], hist_init, fun _ h => by cases h⟩

theorem TabInv.weaken {b : Bool} {T : TreeTable} {Q Q' : Slot TEnt → Prop} (h : TabInv b T Q)
    (hq : ∀ s, Q s → Q' s) : TabInv b T Q' := by
  obtain ⟨live, h1, h2⟩ := h
  exact ⟨live, h1, fun s hs => hq _ (h2 s hs)⟩

theorem TabInv.get {b : Bool} {T T' : TreeTable} {Q : Slot TEnt → Prop} (h : TabInv b T Q) {id : Int}
    {pos : Nat} {r : Option MEntry} (hg : T.get id pos = (r, T')) :
    TabInv b T' Q ∧ ∀ e, r = some e → ∃ s, Q s ∧ s.id = id ∧ s.low = pos ∧ e = s.val.at pos := by
  obtain ⟨live, h1, h2⟩ := h
  simp only [TreeTable.get, Prod.mk.injEq] at hg
  obtain ⟨hr, rfl⟩ := hg
  refine ⟨⟨live, hist_find h1 id pos, h2⟩, ?_⟩
  intro e he
  rw [he, Option.map_eq_some_iff] at hr
  obtain ⟨v, hv, rfl⟩ := hr
  obtain ⟨s, hs, a, b, c⟩ := find_stored (st := ⟨T.map, live⟩) h1 hv
  exact ⟨s.1, h2 s hs, a, b, by rw [c]⟩

theorem TabInv.put {b : Bool} {T : TreeTable} {Q : Slot TEnt → Prop} (h : TabInv b T Q) {id : Int}
    {start : Nat} {length : Option Nat} {examined count : Nat} {captures : List Capture}
    (hq : ∀ x, examined ≤ x → Q ⟨id, start, start + (x : Nat), ⟨start, ⟨length, x, count, captures⟩⟩⟩) :
    TabInv b (T.put id start length examined count captures) Q := by
  unfold TreeTable.put
  split
  · exact h
  · obtain ⟨live, h1, h2⟩ := h
    refine ⟨_, hist_add (st := ⟨T.map, live⟩) h1 (id := id) (low := start)
      (high := start + (max examined (length.getD 0) : Nat))
      (v := ⟨start, ⟨length, max examined (length.getD 0), count, captures⟩⟩) (by omega) (by omega), ?_⟩
    intro s hs
    rcases List.mem_append.1 hs with hs | hs
    · exact h2 s hs
    · rw [List.mem_singleton] at hs
      subst hs
      exact hq _ (Nat.le_max_left ..)

/-- The range an edit removes entries from. -/
def Edit.high (e : Edit) : Nat := if e.start = e.stop then e.start + 1 else e.stop

theorem TabInv.edit {b : Bool} {T : TreeTable} {Q : Slot TEnt → Prop} (h : TabInv b T Q) (e : Edit)
    (he : e.start ≤ e.stop) (hb : b = true → e.stop - e.start ≤ e.len) :
    TabInv true (T.applyEdit e) fun s' => ∃ s, Q s ∧
      follow e.start e.high (e.len - ((e.stop : Int) - e.start)) s = some s' := by
  obtain ⟨live, h1, h2⟩ := h
  have hh : (if e.start = e.stop then (e.start : Int) + 1 else e.stop) = e.high := by
    unfold Edit.high; split <;> simp
  unfold TreeTable.applyEdit
  simp only []
  rw [hh]
  have h3 : (e.start : Int) ≤ e.high ∧ (e.start : Int) - e.high ≤ e.len - ((e.stop : Int) - e.start) := by
    unfold Edit.high; split <;> omega
  refine ⟨_, hist_edit (st := ⟨T.map, live⟩) h1 h3.1 h3.2 (fun hb' => by have := hb hb'; omega), ?_⟩
  intro s hs
  simp only [St.step, List.mem_filterMap, Option.map_eq_some_iff] at hs
  obtain ⟨s0, hs0, s1, hf, rfl⟩ := hs
  exact ⟨s0.1, h2 s0 hs0, hf⟩

end Gpeg
