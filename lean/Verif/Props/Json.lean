import Verif.Json
import Verif.LangRun
/-!
# C60: `grammars/json.peg` and JSON

The machine running the compiled grammar of the file accepts exactly the texts of the variant `file` of JSON
(`Verif/JsonSpec.lean`), which differs from RFC 8259 in three points. The differences are shown by texts; without backslashes,
vertical tabulators and form feeds there are none.
-/
namespace Gpeg
open Gpeg.Re Gpeg.Json Gpeg.JsonPeg

theorem json_wf : jsonGram.grammar.WellFormed [] := Pat.wfB_sound 40 _ _ (by decide +kernel)

theorem json_eats {data : List UInt8} {x : Option (List UInt8)} (h : Eats [] ((Top.gram jsonGram).pat 0).1 data x) :
    (Json file .element data ∧ x = some []) ∨ (¬ Json file .element data ∧ x = none) := by
  rw [json_defs] at h
  exact doc_iff (grammar_eats h)

/-- **C60**. On every text the machine with the compiled grammar of `grammars/json.peg` stops; it matches the whole text if it is
in the language, and does not match otherwise. -/
theorem C60_json {σ : Type} {code : Code} {chk : CheckFn σ} {bufsz : Nat} {st : σ} (hc : Compiled jsonGram.grammar code)
    (hchk : CheckOK chk) (hb : 0 < bufsz) (data : List UInt8) :
    (∃ r, RunsTo chk none code bufsz data st r) ∧ ∀ r, RunsTo chk none code bufsz data st r →
      (Json file .element data ∧ ∃ ch src, src.pos = data.length ∧ r = .done true (some (.dummy 0 data.length ch)) src [] () st) ∨
      (¬ Json file .element data ∧ ∃ src, r = .done false none src [] () st) := by
  obtain ⟨h1, h2⟩ := run_top (top := .gram jsonGram) (m := 0) (st := st) json_wf hc hchk hb data
  refine ⟨h1, fun r hr => ?_⟩
  rcases h2 r hr with ⟨w, v, ch, src, e, he, hpos, rfl⟩ | ⟨he, src, rfl⟩
  · rcases json_eats he with ⟨hj, hv⟩ | ⟨_, hv⟩
    · cases hv
      rw [List.append_nil] at e
      subst e
      exact .inl ⟨hj, ch, src, hpos, rfl⟩
    · cases hv
  · rcases json_eats he with ⟨_, hv⟩ | ⟨hj, _⟩
    · cases hv
    · exact .inr ⟨hj, src, rfl⟩

/-- The hypothesis can be met, and the language has members: `{"a": [1, -2.5e3]}`. -/
example : (∃ code, Compiled jsonGram.grammar code) ∧ Json file .element (bytes "{\"a\": [1, -2.5e3]}") := by
  refine ⟨C58_json.2.1, ?_⟩
  rw [show bytes "{\"a\": [1, -2.5e3]}" = [] ++ ((123 :: (([] ++ ((34 :: ([97] ++ [34])) ++ ([] ++ 58 :: ([32] ++ ((91 :: ((([] ++ (([] ++ ([49] ++ ([] ++ []))) ++
    [])) ++ 44 :: ([32] ++ (([45] ++ ([50] ++ (46 :: [53] ++ 101 :: [51]))) ++ []))) ++ [93])) ++ []))))) ++ [125])) ++ []) by decide +kernel]
  have nil : Ws file [] := by intro _ h; cases h
  have sp : Ws file [32] := by intro b h; cases List.mem_singleton.1 h; rfl
  have dg : ∀ b, digit b = true → Digits [b] := fun b hb => ⟨by simp, fun x hx => by cases List.mem_singleton.1 hx; exact hb⟩
  have n1 : Number ([] ++ ([49] ++ ([] ++ []))) := .mk .no (.pos (by decide) (by decide) (by simp)) .no .no
  have n2 : Number ([45] ++ ([50] ++ (46 :: [53] ++ 101 :: [51]))) :=
    .mk .minus (.pos (by decide) (by decide) (by simp)) (.yes (dg _ rfl)) (.plain (.inl rfl) (dg _ rfl))
  exact .element nil (.obj (.oneMember nil (.mk (.char rfl .nil) rfl) nil (.element sp (.arr (.moreElements (.element nil (.number n1) nil)
    (.oneElement (.element sp (.number n2) nil)))) nil))) nil

/-! ## Differences from RFC 8259 -/

theorem not_file {s : List UInt8} (h : refuses 40 jsonGram.grammar s = true) : ¬ Json file .element s := fun hj => by
  have := json_eats (refuses_sound (top := .gram jsonGram) (m := 0) h)
  rcases this with ⟨_, e⟩ | ⟨hn, _⟩
  · cases e
  · exact hn hj

theorem nilWs {V : Variant} : Ws V [] := by intro _ h; cases h

/-- **C60 (false of RFC 8259)**. A string that begins with two escapes is JSON, but not accepted: `"\n\n"`. -/
theorem C60_escapes_false : Json rfc .element (bytes "\"\\n\\n\"") ∧ ¬ Json file .element (bytes "\"\\n\\n\"") := by
  rw [show bytes "\"\\n\\n\"" = [] ++ ((34 :: ([92, 110, 92, 110] ++ [34])) ++ []) by decide +kernel]
  exact ⟨.element nilWs (.string (.mk (.esc rfl (.esc rfl .nil)) rfl)) nilWs, not_file (by decide +kernel)⟩

/-- **C60 (false of RFC 8259)**. The escape `\/` is JSON, but not accepted. -/
theorem C60_slash_false : Json rfc .element (bytes "\"\\/\"") ∧ ¬ Json file .element (bytes "\"\\/\"") := by
  rw [show bytes "\"\\/\"" = [] ++ ((34 :: ([92, 47] ++ [34])) ++ []) by decide +kernel]
  exact ⟨.element nilWs (.string (.mk (.esc rfl .nil) rfl)) nilWs, not_file (by decide +kernel)⟩

/-- **C60 (false of RFC 8259)**. The escape `\{` is accepted, but not JSON. -/
theorem C60_brace_false : Json file .element (bytes "\"\\{\"") ∧ ¬ Json rfc .element (bytes "\"\\{\"") := by
  rw [show bytes "\"\\{\"" = [] ++ ((34 :: ([92, 123] ++ [34])) ++ []) by decide +kernel]
  refine ⟨.element nilWs (.string (.mk (.esc rfl .nil) rfl)) nilWs, ?_⟩
  generalize hw : ([] ++ ((34 :: ([92, 123] ++ [34])) ++ []) : List UInt8) = w
  intro h
  cases h with
  | @element sp v sp' h1 h2 h3 =>
    cases sp with
    | cons b sp =>
      have := h1 b (by simp)
      have e := congrArg List.head? hw
      simp at e
      subst e
      cases this
    | nil =>
      rw [List.nil_append, List.nil_append] at hw
      cases h2 with
      | number h =>
        obtain ⟨b, t, rfl, hb⟩ := number_head h
        have e := congrArg List.head? hw
        simp at e
        subst e
        cases hb
      | string h =>
        obtain ⟨hi, _⟩ := h
        cases hi with
        | nil => simp at hw
        | char h _ => simp at hw; obtain ⟨rfl, _⟩ := hw; cases h
        | esc h _ => simp at hw; obtain ⟨rfl, _⟩ := hw; cases h
        | uni => simp at hw
      | _ => simp at hw

/-- RFC texts have no control characters besides tabulators and line ends. -/
theorem rfc_bytes {c : Cat} {w : List UInt8} (h : Json rfc c w) : 11 ∉ w := by
  have ws : ∀ {sp}, Ws rfc sp → 11 ∉ sp := fun h hb => by cases h 11 hb
  have digits : ∀ {ds}, Digits ds → 11 ∉ ds := fun h hb => by cases h.2 11 hb
  have items : ∀ {fs w}, Items rfc fs w → 11 ∉ w := by
    intro fs w h
    induction h with
    | nil => simp
    | char h _ ih => simp only [List.mem_cons, not_or]; exact ⟨(fun e => by subst e; cases h), ih⟩
    | esc h _ ih => simp only [List.mem_cons, not_or]; exact ⟨(by decide), (fun e => by subst e; cases h), ih⟩
    | uni h1 h2 h3 h4 _ ih =>
      simp only [List.mem_cons, not_or]
      exact ⟨(by decide), (by decide), (fun e => by subst e; cases h1), (fun e => by subst e; cases h2), (fun e => by subst e; cases h3),
        (fun e => by subst e; cases h4), ih⟩
  have str : ∀ {w}, Str rfc w → 11 ∉ w := by
    rintro _ ⟨h, _⟩
    simp [items h]
  have num : ∀ {w}, Number w → 11 ∉ w := by
    rintro _ ⟨hs, hi, hf, he⟩
    have a1 : ∀ {s}, Sign s → 11 ∉ s := by rintro _ ⟨⟩ <;> simp
    have a2 : ∀ {s}, Json.Int s → 11 ∉ s := by
      rintro _ (_ | ⟨h1, _, h3⟩)
      · simp
      · simp only [List.mem_cons, not_or]
        exact ⟨(fun e => by subst e; exact absurd h1 (by decide)), fun hb => by cases h3 11 hb⟩
    have a3 : ∀ {s}, Frac s → 11 ∉ s := by
      rintro _ (_ | h)
      · simp
      · simp [digits h]
    have a4 : ∀ {s}, Exp s → 11 ∉ s := by
      rintro _ (_ | ⟨h1, h⟩ | ⟨h1, h2, h⟩)
      · simp
      · rcases h1 with rfl | rfl <;> simp [digits h]
      · rcases h1 with rfl | rfl <;> rcases h2 with rfl | rfl <;> simp [digits h]
    simp [a1 hs, a2 hi, a3 hf, a4 he]
  induction h with
  | number h => exact num h
  | string h => exact str h
  | true | false | null => decide
  | obj0 h | arr0 h => simp [ws h]
  | obj _ ih | arr _ ih => simp [ih]
  | element h1 _ h3 ih => simp [ws h1, ih, ws h3]
  | oneElement _ ih => exact ih
  | moreElements _ _ ih1 ih2 => simp [ih1, ih2]
  | oneMember h1 h2 h3 _ ih => simp [ws h1, str h2, ws h3, ih]
  | moreMembers h1 h2 h3 _ _ ih1 ih2 => simp [ws h1, str h2, ws h3, ih1, ih2]

/-- **C60 (false of RFC 8259)**. A vertical tabulator is accepted as a blank. -/
theorem C60_blank_false : Json file .element [11, 48] ∧ ¬ Json rfc .element [11, 48] := by
  refine ⟨?_, fun h => rfc_bytes h (by simp)⟩
  have h0 : Number ([] ++ ([48] ++ ([] ++ []))) := .mk .no .zero .no .no
  exact .element (sp := [11]) (sp' := []) (by intro b h; cases List.mem_singleton.1 h; rfl) (.number h0) nilWs

theorem items_plain {V : Variant} (W : Variant) {fs : List Bool} {w : List UInt8} (h : Items V fs w) (hn : 92 ∉ w) :
    Items W fs w ∧ true ∉ fs := by
  induction h with
  | nil => exact ⟨.nil, by simp⟩
  | char h1 _ ih => obtain ⟨h2, h3⟩ := ih (fun h => hn (by simp [h])); exact ⟨.char h1 h2, by simpa using h3⟩
  | esc => simp at hn
  | uni => simp at hn

theorem str_plain {V : Variant} {w : List UInt8} (h : Str V w) (hn : 92 ∉ w) : Str common w := by
  obtain ⟨h1, _⟩ := h
  obtain ⟨h2, h3⟩ := items_plain common h1 (fun h => hn (by simp [h]))
  refine .mk h2 ?_
  rename_i fs _ _
  match fs with
  | [] | false :: _ => rfl
  | true :: _ => simp at h3

/-- Without backslashes and without the blanks that are not RFC blanks every text of a variant is common. -/
theorem json_plain {V : Variant} (hV : ∀ b, V.ws b = true → rfc.ws b = true ∨ b = 11 ∨ b = 12) {c : Cat} {w : List UInt8} (h : Json V c w) :
    92 ∉ w → 11 ∉ w → 12 ∉ w → Json common c w := by
  have ws : ∀ {sp}, Ws V sp → 11 ∉ sp → 12 ∉ sp → Ws common sp := by
    intro sp h h1 h2 b hb
    rcases hV b (h b hb) with h | rfl | rfl
    · exact h
    · exact (h1 hb).elim
    · exact (h2 hb).elim
  induction h with
  | number h => exact fun _ _ _ => .number h
  | string h => exact fun h1 _ _ => .string (str_plain h h1)
  | true => exact fun _ _ _ => .true
  | false => exact fun _ _ _ => .false
  | null => exact fun _ _ _ => .null
  | obj0 h =>
    intro _ h2 h3
    simp only [List.mem_cons, List.mem_append, not_or] at h2 h3
    exact .obj0 (ws h h2.2.1 h3.2.1)
  | arr0 h =>
    intro _ h2 h3
    simp only [List.mem_cons, List.mem_append, not_or] at h2 h3
    exact .arr0 (ws h h2.2.1 h3.2.1)
  | obj _ ih =>
    intro h1 h2 h3
    simp only [List.mem_cons, List.mem_append, not_or] at h1 h2 h3
    exact .obj (ih h1.2.1 h2.2.1 h3.2.1)
  | arr _ ih =>
    intro h1 h2 h3
    simp only [List.mem_cons, List.mem_append, not_or] at h1 h2 h3
    exact .arr (ih h1.2.1 h2.2.1 h3.2.1)
  | element ha _ hb ih =>
    intro h1 h2 h3
    simp only [List.mem_append, not_or] at h1 h2 h3
    exact .element (ws ha h2.1 h3.1) (ih h1.2.1 h2.2.1 h3.2.1) (ws hb h2.2.2 h3.2.2)
  | oneElement _ ih => exact fun h1 h2 h3 => .oneElement (ih h1 h2 h3)
  | moreElements _ _ ih1 ih2 =>
    intro h1 h2 h3
    simp only [List.mem_append, List.mem_cons, not_or] at h1 h2 h3
    exact .moreElements (ih1 h1.1 h2.1 h3.1) (ih2 h1.2.2 h2.2.2 h3.2.2)
  | oneMember ha hk hb _ ih =>
    intro h1 h2 h3
    simp only [List.mem_append, List.mem_cons, not_or] at h1 h2 h3
    exact .oneMember (ws ha h2.1 h3.1) (str_plain hk h1.2.1) (ws hb h2.2.2.1 h3.2.2.1) (ih h1.2.2.2.2 h2.2.2.2.2 h3.2.2.2.2)
  | moreMembers ha hk hb _ _ ih1 ih2 =>
    intro h1 h2 h3
    simp only [List.mem_append, List.mem_cons, not_or] at h1 h2 h3
    exact .moreMembers (ws ha h2.1 h3.1) (str_plain hk h1.2.1) (ws hb h2.2.2.1 h3.2.2.1) (ih1 h1.2.2.2.2.1 h2.2.2.2.2.1 h3.2.2.2.2.1)
      (ih2 h1.2.2.2.2.2.2 h2.2.2.2.2.2.2 h3.2.2.2.2.2.2)

/-- **C60 (partial)**. On texts without backslashes, vertical tabulators and form feeds the grammar accepts exactly JSON.
What is missing is false: see the theorems above. -/
theorem C60_rfc_partial {w : List UInt8} (h1 : 92 ∉ w) (h2 : 11 ∉ w) (h3 : 12 ∉ w) : Json file .element w ↔ Json rfc .element w :=
  ⟨fun h => (json_plain (by
      intro b hb
      simp only [file, rfc, Bool.or_eq_true, beq_iff_eq] at hb ⊢
      rcases hb with (hb | hb) | hb
      · exact .inl hb
      · exact .inr (.inl hb)
      · exact .inr (.inr hb)) h h1 h2 h3).mono common_rfc,
    fun h => (json_plain (fun _ hb => .inl hb) h h1 h2 h3).mono common_file⟩

end Gpeg
