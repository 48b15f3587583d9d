import Verif.Pattern
import Verif.Peg
/-!
# Model of `re/grammar.go` and `re/re.go`

`re.Compile` parses its argument with a pattern (`reGrammar`), executed by the machine, and turns the
captures into a pattern (`compileRe`).
-/
namespace Gpeg

namespace Re
/-! `re/grammar.go:58-84` -/
def idPattern : Int := 0
def idGrammar : Int := 1
def idDefinition : Int := 2
def idExpression : Int := 3
def idSequence : Int := 4
def idPrefix : Int := 5
def idSuffix : Int := 6
def idPrimary : Int := 7
def idLiteral : Int := 8
def idRange : Int := 9
def idClass : Int := 10
def idIdentifier : Int := 11
def idIdentStart : Int := 12
def idIdentCont : Int := 13
def idChar : Int := 14
def idAND : Int := 15
def idNOT : Int := 16
def idQUESTION : Int := 17
def idSTAR : Int := 18
def idPLUS : Int := 19
def idDOT : Int := 20
def idCARAT : Int := 21
def idOPEN : Int := 22
def idBRACEO : Int := 23
def idBRACEPO : Int := 24

/-- `Cap(Concat(Literal(s), NonTerm("Spacing")), id)`. -/
def tok (s : List UInt8) (id : Int) : Pat := .cap (concatPat [.lit s, .nonterm "Spacing"]) id
/-- `Concat(Literal(s), NonTerm("Spacing"))`. -/
def tok0 (s : List UInt8) : Pat := concatPat [.lit s, .nonterm "Spacing"]

/-- `grammar.go:156-158`. -/
def startSet : CSet := ((CSet.range 97 122).add (CSet.range 65 90)).add (CSet.new [95])

/-! `re/grammar.go:86-308`, one definition each, in order. -/
def dPattern : Pat := .cap (concatPat [.nonterm "Spacing", orPat [.nonterm "Grammar", .nonterm "Expression"],
  .nonterm "EndOfFile"]) idPattern
def dGrammar : Pat := .cap (.plus (.nonterm "Definition")) idGrammar
def dDefinition : Pat := .cap (concatPat [.nonterm "Identifier", .nonterm "LEFTARROW", .nonterm "Expression"]) idDefinition
def dExpression : Pat := .cap (concatPat [.nonterm "Sequence", .star (concatPat [.nonterm "SLASH", .nonterm "Sequence"])])
  idExpression
def dSequence : Pat := .cap (.star (.nonterm "Prefix")) idSequence
def dPrefix : Pat := .cap (concatPat [.opt (orPat [.nonterm "AND", .nonterm "NOT"]), .nonterm "Suffix"]) idPrefix
def dSuffix : Pat := .cap (concatPat [.nonterm "Primary", .opt (orPat [.nonterm "QUESTION", .nonterm "STAR",
  .nonterm "PLUS"])]) idSuffix
def dPrimary : Pat := .cap (orPat [
  concatPat [.nonterm "Identifier", .not (.nonterm "LEFTARROW")],
  concatPat [.nonterm "OPEN", .nonterm "Expression", .nonterm "CLOSE"],
  concatPat [.nonterm "BRACEPO", .nonterm "Expression", .nonterm "BRACEPC"],
  concatPat [.nonterm "BRACEO", .nonterm "Expression", .nonterm "BRACEC"],
  .nonterm "Literal", .nonterm "Class", .nonterm "DOT"]) idPrimary
def dIdentifier : Pat := .cap (concatPat [.nonterm "IdentStart", .star (.nonterm "IdentCont"), .nonterm "Spacing"])
  idIdentifier
def dIdentStart : Pat := .cap (.cls startSet) idIdentStart
def dIdentCont : Pat := .cap (orPat [.nonterm "IdentStart", .cls (CSet.range 48 57)]) idIdentCont
def quoted (q : UInt8) : Pat := concatPat [.lit [q], .star (concatPat [.not (.lit [q]), .nonterm "Char"]), .lit [q],
  .nonterm "Spacing"]
def dLiteral : Pat := .cap (orPat [quoted 39, quoted 34]) idLiteral
def dClass : Pat := .cap (concatPat [.lit [91], .opt (.nonterm "CARAT"),
  .star (concatPat [.not (.lit [93]), .nonterm "Range"]), .lit [93], .nonterm "Spacing"]) idClass
def dRange : Pat := .cap (orPat [concatPat [.nonterm "Char", .lit [45], .nonterm "Char"], .nonterm "Char"]) idRange
/-- The bytes after a backslash that stand for one byte: `n r t ' " [ ] \ -`. -/
def escSet : List UInt8 := [110, 114, 116, 39, 34, 91, 93, 92, 45]
def octSet : CSet := CSet.range 48 55
def dChar : Pat := .cap (orPat [
  concatPat [.lit [92], .cls (CSet.new escSet)],
  concatPat [.lit [92], .cls (CSet.range 48 50), .cls octSet, .cls octSet],
  concatPat [.lit [92], .cls octSet, .opt (.cls octSet)],
  concatPat [.not (.lit [92]), .dot 1]]) idChar
def dSpacing : Pat := .star (orPat [.nonterm "Space", .nonterm "Comment"])
def dComment : Pat := concatPat [.lit [35], .star (concatPat [.not (.nonterm "EndOfLine"), .dot 1]), .nonterm "EndOfLine"]
def dSpace : Pat := orPat [.cls (CSet.new [32, 9]), .nonterm "EndOfLine"]
def dEndOfLine : Pat := orPat [.lit [13, 10], .lit [10], .lit [13]]
def dEndOfFile : Pat := .not (.dot 1)

/-- The map of `re/grammar.go:86-308` as an association list. -/
def defs : Defs :=
  .cons "Pattern" dPattern <| .cons "Grammar" dGrammar <| .cons "Definition" dDefinition <|
  .cons "Expression" dExpression <| .cons "Sequence" dSequence <| .cons "Prefix" dPrefix <|
  .cons "Suffix" dSuffix <| .cons "Primary" dPrimary <| .cons "Identifier" dIdentifier <|
  .cons "IdentStart" dIdentStart <| .cons "IdentCont" dIdentCont <| .cons "Literal" dLiteral <|
  .cons "Class" dClass <| .cons "Range" dRange <| .cons "Char" dChar <|
  .cons "AND" (tok [38] idAND) <| .cons "NOT" (tok [33] idNOT) <| .cons "QUESTION" (tok [63] idQUESTION) <|
  .cons "STAR" (tok [42] idSTAR) <| .cons "PLUS" (tok [43] idPLUS) <| .cons "DOT" (tok [46] idDOT) <|
  .cons "CARAT" (tok [94] idCARAT) <| .cons "OPEN" (tok [40] idOPEN) <| .cons "CLOSE" (tok0 [41]) <|
  .cons "BRACEO" (tok [123] idBRACEO) <| .cons "BRACEC" (tok0 [125]) <| .cons "BRACEPO" (tok [123, 123] idBRACEPO) <|
  .cons "BRACEPC" (tok0 [125, 125]) <| .cons "SLASH" (tok0 [47]) <| .cons "LEFTARROW" (tok0 [60, 45]) <|
  .cons "Spacing" dSpacing <| .cons "Comment" dComment <| .cons "Space" dSpace <|
  .cons "EndOfLine" dEndOfLine <| .cons "EndOfFile" dEndOfFile .nil

/-- `re/re.go:20`. -/
def reGrammar : Pat := .grammar "Pattern" defs

/-- `re/re.go:129-139` `special`. -/
def special : List (UInt8 × UInt8) :=
  [(110, 10), (114, 13), (116, 9), (39, 39), (34, 34), (91, 91), (93, 93), (92, 92), (45, 45)]

/-- `strconv.ParseInt(s, 8, 8)` for strings without a sign, first result: 0 if some byte is not an
octal digit, at most 127. -/
def parseOctal8 (s : List UInt8) : Nat :=
  if s.all fun c => 48 ≤ c && c ≤ 55 then min 127 (s.foldl (fun v c => v * 8 + (c.toNat - 48)) 0) else 0

/-- `re/re.go:141-155` `parseChar`. (Index out of range panics become 0; the grammar excludes them.) -/
def parseChar : List UInt8 → UInt8
  | 92 :: c :: rest =>
    match special.lookup c with
    | some v => v
    | none => UInt8.ofNat (parseOctal8 (c :: rest))
  | c :: _ => c
  | [] => 0

/-- `s[c.Start():c.End()]`. -/
def textOf (s : List UInt8) : CTree → List UInt8
  | .node _ st len _ => (s.drop st).take len

/-- `c.Id()`. -/
def cid : CTree → Int
  | .node id _ _ _ => id

/-- The children of a capture, as enumerated by `ChildIterator`. -/
def kids : CTree → List CTree
  | .node _ _ _ ch => ch

/-- A string of bytes as an identifier. -/
def nameOf (bs : List UInt8) : String := String.ofList (bs.map fun b => Char.ofNat b.toNat)

/-- `re/re.go:157-164` `parseId`. -/
def parseId (s : List UInt8) (c : CTree) : String := nameOf ((kids c).flatMap (textOf s))

/-- `re/re.go:172-182` `compileSet`. -/
def compileSet (s : List UInt8) (c : CTree) : CSet :=
  match kids c with
  | [c] => CSet.new [parseChar (textOf s c)]
  | [c1, c2] => CSet.range (parseChar (textOf s c1)) (parseChar (textOf s c2))
  | _ => CSet.empty

/-- `nonterms[k] = v`. -/
def Defs.set (k : String) (v : Pat) : Defs → Defs
  | .nil => .cons k v .nil
  | .cons k' v' rest => if k' = k then .cons k v rest else .cons k' v' (Defs.set k v rest)

/-- `pattern/pattern.go:210-219` `CapGrammar`: the ids follow the iteration order of the map. -/
def capDefs : Defs → Int → Defs
  | .nil, _ => .nil
  | .cons k v rest, id => .cons k (.cap v id) (capDefs rest (id + 1))

mutual
/-- `re/re.go:24-127` `compile`. The state is the counter `memoId` (`pattern/pattern.go:37`, `:50-57`). `none`
stands for a nil pattern, a pattern with a nil pattern inside (whose compilation panics), or a panic. -/
def compileRe (capg : Bool) (s : List UInt8) : CTree → Nat → Option Pat × Nat
  | .node id st len ch, m =>
    if id = idPattern then
      match ch with
      | c :: _ => compileRe capg s c m
      | [] => (none, m)
    else if id = idGrammar then
      match compileDefs capg s ch m with
      | (some ((first, v) :: rest), m) =>
        let ds := rest.foldl (fun ds kv => Defs.set kv.1 kv.2 ds) (.cons first v .nil)
        (some (.grammar first (if capg then capDefs ds 0 else ds)), m)
      | (_, m) => (none, m)
    else if id = idExpression then
      match compileAll capg s ch m with
      | (some ps, m) => (some (orPat ps), m)
      | (none, m) => (none, m)
    else if id = idSequence then
      match compileAll capg s ch m with
      | (some ps, m) => (some (concatPat ps), m)
      | (none, m) => (none, m)
    else if id = idPrefix then
      match ch with
      | c :: rest =>
        if cid c = idAND then
          match rest with
          | c1 :: _ => let r := compileRe capg s c1 m; (r.1.map .and, r.2)
          | [] => (none, m)
        else if cid c = idNOT then
          match rest with
          | c1 :: _ => let r := compileRe capg s c1 m; (r.1.map .not, r.2)
          | [] => (none, m)
        else compileRe capg s c m
      | [] => (none, m)
    else if id = idSuffix then
      match ch with
      | [c0, c] =>
        if cid c = idQUESTION then let r := compileRe capg s c0 m; (r.1.map .opt, r.2)
        else if cid c = idSTAR then let r := compileRe capg s c0 m; (r.1.map .star, r.2)
        else if cid c = idPLUS then let r := compileRe capg s c0 m; (r.1.map .plus, r.2)
        else (none, m)
      | c0 :: _ => compileRe capg s c0 m
      | [] => (none, m)
    else if id = idPrimary then
      match ch with
      | c :: rest =>
        if cid c = idIdentifier ∨ cid c = idLiteral ∨ cid c = idClass then compileRe capg s c m
        else if cid c = idOPEN then
          match rest with
          | c1 :: _ => compileRe capg s c1 m
          | [] => (none, m)
        else if cid c = idBRACEPO then
          match rest with
          | c1 :: _ => let r := compileRe capg s c1 m; (r.1.map fun p => .memo p r.2, r.2 + 1)
          | [] => (none, m)
        else if cid c = idDOT then (some (.dot 1), m)
        else (none, m)
      | [] => (none, m)
    else if id = idLiteral then (some (.lit (ch.map fun c => parseChar (textOf s c))), m)
    else if id = idClass then
      match ch with
      | [] => (none, m)
      | c :: rest =>
        if cid c = idCARAT then
          (some (.cls ((rest.foldl (fun set c => set.add (compileSet s c)) CSet.empty).complement)), m)
        else (some (.cls ((c :: rest).foldl (fun set c => set.add (compileSet s c)) CSet.empty)), m)
    else if id = idIdentifier then (some (.nonterm (parseId s (.node id st len ch))), m)
    else (none, m)
/-- The loops of `re.go:48-50`, `:55-57`. -/
def compileAll (capg : Bool) (s : List UInt8) : List CTree → Nat → Option (List Pat) × Nat
  | [], m => (some [], m)
  | c :: cs, m =>
    let r := compileRe capg s c m
    let r' := compileAll capg s cs r.2
    (r.1.bind fun p => r'.1.map fun ps => p :: ps, r'.2)
/-- The loop of `re.go:33-39` with `compileDef` (`:166-170`). -/
def compileDefs (capg : Bool) (s : List UInt8) : List CTree → Nat → Option (List (String × Pat)) × Nat
  | [], m => (some [], m)
  | .node _ _ _ ch :: cs, m =>
    match ch with
    | idn :: exp :: _ =>
      let r := compileRe capg s exp m
      let r' := compileDefs capg s cs r.2
      (r.1.bind fun p => r'.1.map fun ps => (parseId s idn, p) :: ps, r'.2)
    | _ => (none, m)
end

/-- `re/re.go:184-194`, `:204-214` `Compile` and `CompileCap`, given the result of `parser.Exec`. -/
def fromAst (capg : Bool) (s : List UInt8) (ast : List CTree) (m : Nat) : Option Pat × Nat :=
  match ast with
  | c :: _ => compileRe capg s c m
  | [] => (none, m)

end Re
end Gpeg
