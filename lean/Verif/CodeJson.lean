import Verif.Encode
import Verif.Listing
/-!
# Model of `ToJson` and `FromJson` (`vm/code.go:68-83`)

The two functions are calls of `json.Marshal` and `json.Unmarshal`, so this is a model of what `encoding/json` of the Go library does
for values of the type `code` (`vm/code.go:20-30`). Texts are lists of characters. Simplifications, none of which matters for texts
written by `ToJson`: of numbers only natural ones are read, and no booleans; escaped surrogates are an error; names of fields must match
exactly (Go also takes names that differ in case); checkers cannot be `nil`; instructions must be a string (Go also takes an array), and
newlines in it are an error.
-/
namespace Gpeg

/-- JSON values. -/
inductive Json
  | null
  | num (n : Nat)
  | str (s : List Char)
  | arr (l : List Json)
  | obj (l : List (List Char × Json))

/-! ## Writing -/

/-- A character in a string written by `json.Marshal` (which escapes `<`, `>`, `&` and two line separators as well). -/
def jsonChar (c : Char) : List Char :=
  if c = '"' then ['\\', '"'] else if c = '\\' then ['\\', '\\'] else if c = '\n' then ['\\', 'n'] else if c = '\r' then ['\\', 'r']
  else if c = '\t' then ['\\', 't']
  else if c.toNat < 32 ∨ c = '<' ∨ c = '>' ∨ c = '&' ∨ c.toNat = 8232 ∨ c.toNat = 8233 then '\\' :: 'u' :: hexN 4 c.toNat
  else [c]

/-- A string written by `json.Marshal`. -/
def jsonStr (s : List Char) : List Char := '"' :: (s.flatMap jsonChar ++ ['"'])

mutual
/-- `json.Marshal`. -/
def Json.render : Json → List Char
  | .null => ['n', 'u', 'l', 'l']
  | .num n => Gpeg.num n
  | .str s => jsonStr s
  | .arr [] => ['[', ']']
  | .arr (v :: l) => '[' :: (v.render ++ (Json.renderL l ++ [']']))
  | .obj [] => ['{', '}']
  | .obj ((k, v) :: l) => '{' :: (jsonStr k ++ (':' :: (v.render ++ (Json.renderF l ++ ['}']))))
/-- The elements of an array behind the first. -/
def Json.renderL : List Json → List Char
  | [] => []
  | v :: l => ',' :: (v.render ++ Json.renderL l)
/-- The fields of an object behind the first. -/
def Json.renderF : List (List Char × Json) → List Char
  | [] => []
  | (k, v) :: l => ',' :: (jsonStr k ++ (':' :: (v.render ++ Json.renderF l)))
end

/-! ## Reading -/

/-- White space. -/
def jsonWs (s : List Char) : List Char := s.dropWhile fun c => c == ' ' || c == '\t' || c == '\n' || c == '\r'

/-- A hexadecimal digit. -/
def hexDigit (c : Char) : Option Nat :=
  if '0' ≤ c ∧ c ≤ '9' then some (c.toNat - 48) else if 'a' ≤ c ∧ c ≤ 'f' then some (c.toNat - 87)
  else if 'A' ≤ c ∧ c ≤ 'F' then some (c.toNat - 55) else none

/-- What is behind a backslash. -/
def jsonEsc : List Char → Option (Char × List Char)
  | '"' :: r => some ('"', r)
  | '\\' :: r => some ('\\', r)
  | '/' :: r => some ('/', r)
  | 'b' :: r => some (Char.ofNat 8, r)
  | 'f' :: r => some (Char.ofNat 12, r)
  | 'n' :: r => some ('\n', r)
  | 'r' :: r => some ('\r', r)
  | 't' :: r => some ('\t', r)
  | 'u' :: a :: b :: c :: d :: r =>
    match hexDigit a, hexDigit b, hexDigit c, hexDigit d with
    | some a, some b, some c, some d =>
      let n := ((a * 16 + b) * 16 + c) * 16 + d
      if 0xd800 ≤ n ∧ n < 0xe000 then none else some (Char.ofNat n, r)
    | _, _, _, _ => none
  | _ => none

/-- A string, behind the first quote. -/
def parseStr : Nat → List Char → Option (List Char × List Char)
  | 0, _ => none
  | _ + 1, [] => none
  | f + 1, c :: r =>
    if c = '"' then some ([], r)
    else if c = '\\' then
      match jsonEsc r with
      | some (c, r) => (parseStr f r).map fun x => (c :: x.1, x.2)
      | none => none
    else if c.toNat < 32 then none
    else (parseStr f r).map fun x => (c :: x.1, x.2)

/-- A number. -/
def parseNum (s : List Char) : Option (Json × List Char) :=
  let d := s.takeWhile Char.isDigit
  let r := s.dropWhile Char.isDigit
  if d = [] ∨ (d.head? = some '0' ∧ d ≠ ['0']) then none
  else some (.num (d.foldl (fun n c => n * 10 + (c.toNat - 48)) 0), r)

mutual
/-- A value. The first argument bounds the depth of the recursion. -/
def parseV : Nat → List Char → Option (Json × List Char)
  | 0, _ => none
  | f + 1, s =>
    match jsonWs s with
    | [] => none
    | c :: r =>
      if c = 'n' then if r.take 3 = ['u', 'l', 'l'] then some (.null, r.drop 3) else none
      else if c = '"' then (parseStr (r.length + 1) r).map fun x => (.str x.1, x.2)
      else if c = '[' then
        if (jsonWs r).head? = some ']' then some (.arr [], (jsonWs r).tail)
        else (parseElems f r).map fun x => (.arr x.1, x.2)
      else if c = '{' then
        if (jsonWs r).head? = some '}' then some (.obj [], (jsonWs r).tail)
        else (parseFields f r).map fun x => (.obj x.1, x.2)
      else parseNum (c :: r)
/-- Elements of an array. -/
def parseElems : Nat → List Char → Option (List Json × List Char)
  | 0, _ => none
  | f + 1, s =>
    match parseV f s with
    | none => none
    | some (v, r) =>
      match jsonWs r with
      | [] => none
      | c :: r =>
        if c = ',' then (parseElems f r).map fun x => (v :: x.1, x.2)
        else if c = ']' then some ([v], r) else none
/-- Fields of an object. -/
def parseFields : Nat → List Char → Option (List (List Char × Json) × List Char)
  | 0, _ => none
  | f + 1, s =>
    if (jsonWs s).head? = some '"' then
      match parseStr ((jsonWs s).length + 1) (jsonWs s).tail with
      | none => none
      | some (k, r) =>
        if (jsonWs r).head? = some ':' then
          match parseV f (jsonWs r).tail with
          | none => none
          | some (v, r) =>
            match jsonWs r with
            | [] => none
            | c :: r =>
              if c = ',' then (parseFields f r).map fun x => ((k, v) :: x.1, x.2)
              else if c = '}' then some ([(k, v)], r) else none
        else none
    else none
end

/-- A text. -/
def parseJson (s : List Char) : Option Json :=
  match parseV (2 * s.length) s with
  | some (v, r) => if jsonWs r = [] then some v else none
  | none => none

/-! ## Bytes -/

/-- The alphabet of base 64. -/
def b64 (n : Nat) : Char :=
  if n < 26 then Char.ofNat (65 + n) else if n < 52 then Char.ofNat (71 + n) else if n < 62 then Char.ofNat (n - 4)
  else if n = 62 then '+' else '/'

/-- `base64.StdEncoding.EncodeToString`, which is how `[]byte` is written. -/
def b64Enc : List UInt8 → List Char
  | a :: b :: c :: r =>
    let n := a.toNat * 65536 + b.toNat * 256 + c.toNat
    b64 (n / 262144) :: b64 (n / 4096 % 64) :: b64 (n / 64 % 64) :: b64 (n % 64) :: b64Enc r
  | [a, b] =>
    let n := a.toNat * 65536 + b.toNat * 256
    [b64 (n / 262144), b64 (n / 4096 % 64), b64 (n / 64 % 64), '=']
  | [a] =>
    let n := a.toNat * 65536
    [b64 (n / 262144), b64 (n / 4096 % 64), '=', '=']
  | [] => []

/-- The number of a character. -/
def b64Val (c : Char) : Option Nat :=
  if 'A' ≤ c ∧ c ≤ 'Z' then some (c.toNat - 65) else if 'a' ≤ c ∧ c ≤ 'z' then some (c.toNat - 71)
  else if '0' ≤ c ∧ c ≤ '9' then some (c.toNat + 4) else if c = '+' then some 62 else if c = '/' then some 63 else none

/-- `base64.StdEncoding.Decode`. -/
def b64Dec : List Char → Option (List UInt8)
  | [] => some []
  | a :: b :: c :: d :: r =>
    match b64Val a, b64Val b with
    | some x, some y =>
      if d = '=' ∧ r = [] then
        if c = '=' then some [UInt8.ofNat ((x * 262144 + y * 4096) / 65536)]
        else match b64Val c with
          | some z => some [UInt8.ofNat ((x * 262144 + y * 4096 + z * 64) / 65536), UInt8.ofNat ((x * 262144 + y * 4096 + z * 64) / 256 % 256)]
          | none => none
      else
        match b64Val c, b64Val d with
        | some z, some w =>
          let n := x * 262144 + y * 4096 + z * 64 + w
          (b64Dec r).map fun t => UInt8.ofNat (n / 65536) :: UInt8.ofNat (n / 256 % 256) :: UInt8.ofNat (n % 256) :: t
        | _, _ => none
    | _, _ => none
  | _ => none

/-! ## Codes -/

/-- Name of a field. -/
def nameBits : List Char := ['B', 'i', 't', 's']
/-- Name of a field. -/
def nameSets : List Char := ['S', 'e', 't', 's']
/-- Name of a field. -/
def nameErrors : List Char := ['E', 'r', 'r', 'o', 'r', 's']
/-- Name of a field. -/
def nameCheckers : List Char := ['C', 'h', 'e', 'c', 'k', 'e', 'r', 's']
/-- Name of a field. -/
def nameInsns : List Char := ['I', 'n', 's', 'n', 's']

/-- `charset/charset.go:14-18` in JSON. -/
def CSet.json (c : CSet) : Json :=
  .obj [(nameBits, .arr [.num c.w0.toNat, .num c.w1.toNat, .num c.w2.toNat, .num c.w3.toNat])]

/-- A slice that is `nil` when empty. -/
def nilArr (l : List Json) : Json := if l.isEmpty then .null else .arr l

/-- `vm/code.go:20-30` in JSON; `chk` is what a checker is written as. -/
def Code.json (chk : Nat → Json) (c : Code) : Json :=
  .obj [(nameSets, .arr (c.sets.map CSet.json)), (nameErrors, nilArr (c.errors.map fun m => .str m.toList)),
    (nameCheckers, nilArr (c.checkers.map chk)), (nameInsns, .str (b64Enc c.insns))]

/-- `vm/code.go:68-70` `ToJson`. -/
def Code.toJson (chk : Nat → Json) (c : Code) : List Char := (c.json chk).render

/-- A `uint64`. -/
def Json.word : Json → Option (BitVec 64)
  | .num n => if n < 2 ^ 64 then some (BitVec.ofNat 64 n) else none
  | .null => some 0
  | _ => none

/-- An array of four: what is missing is zero, what is too much is dropped. -/
def Json.bits : Json → Option CSet
  | .null => some .empty
  | .arr l => (l.mapM Json.word).map fun w => ⟨w.getD 0 0, w.getD 1 0, w.getD 2 0, w.getD 3 0⟩
  | _ => none

/-- `charset/charset.go:14-18` from JSON. -/
def Json.set : Json → Option CSet
  | .null => some .empty
  | .obj fs => fs.foldlM (fun c x => if x.1 = nameBits then x.2.bits else some c) .empty
  | _ => none

/-- A slice. -/
def Json.slice {α : Type} (f : Json → Option α) : Json → Option (List α)
  | .null => some []
  | .arr l => l.mapM f
  | _ => none

/-- A string. -/
def Json.text : Json → Option String
  | .str s => some (String.ofList s)
  | .null => some ""
  | _ => none

/-- Bytes. -/
def Json.bytes : Json → Option (List UInt8)
  | .str s => b64Dec s
  | .null => some []
  | _ => none

/-- A field of `vm/code.go:20-30`. A value of the interface type `isa.Checker` cannot be read: `json.Unmarshal` returns an error unless
the value is `null`. -/
def Code.field (c : Code) (x : List Char × Json) : Option Code :=
  if x.1 = nameSets then (x.2.slice Json.set).map fun l => { c with sets := l }
  else if x.1 = nameErrors then (x.2.slice Json.text).map fun l => { c with errors := l }
  else if x.1 = nameCheckers then (x.2.slice fun _ => none).map fun l => { c with checkers := l }
  else if x.1 = nameInsns then x.2.bytes.map fun l => { c with insns := l }
  else some c

/-- `vm/code.go:73-79` `FromJson`; `none` is an error. -/
def Code.fromJson (s : List Char) : Option Code :=
  match parseJson s with
  | some (.obj fs) => fs.foldlM Code.field ⟨[], [], [], []⟩
  | some .null => some ⟨[], [], [], []⟩
  | _ => none

end Gpeg
