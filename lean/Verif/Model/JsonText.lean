import Verif.Model.Json
import Verif.Model.Utf8
/-!
# JSON text (`serde_json::to_string`, `to_vec`, `from_str`, `from_slice`)
-/

set_option autoImplicit false

namespace Oid4vp

/-- Lower-case hexadecimal digit (`serde_json`'s `\u00xx`). -/
def hexLower (n : Nat) : Char :=
  if n < 10 then Char.ofNat (48 + n) else Char.ofNat (87 + n)

/-- Escaping of one character by `serde_json`'s compact formatter. -/
def jEsc (c : Char) : Str :=
  if c = '"' then ['\\', '"']
  else if c = '\\' then ['\\', '\\']
  else if c.toNat = 8 then ['\\', 'b']
  else if c.toNat = 12 then ['\\', 'f']
  else if c.toNat = 10 then ['\\', 'n']
  else if c.toNat = 13 then ['\\', 'r']
  else if c.toNat = 9 then ['\\', 't']
  else if c.toNat < 32 then
    ['\\', 'u', '0', '0', hexLower (c.toNat / 16), hexLower (c.toNat % 16)]
  else [c]

/-- A JSON string literal. -/
def jStr (s : Str) : Str := '"' :: (s.flatMap jEsc ++ ['"'])

/-- Decimal digits of a natural number, with fuel. -/
def digitsAux : Nat → Nat → Str
  | 0, _ => []
  | f + 1, n =>
    if n < 10 then [Char.ofNat (48 + n)]
    else digitsAux f (n / 10) ++ [Char.ofNat (48 + n % 10)]

/-- `itoa` for unsigned numbers. -/
def natStr (n : Nat) : Str := digitsAux (n + 1) n

/-- `itoa` for signed numbers. -/
def intStr (i : Int) : Str :=
  if i < 0 then '-' :: natStr i.natAbs else natStr i.natAbs

mutual
/-- `serde_json::to_string`: compact JSON. Members of an object are printed in the order
of the list (sorted for a `serde_json::Map`). -/
def jPrint : Json → Str
  | .null => c!"null"
  | .bool true => c!"true"
  | .bool false => c!"false"
  | .int i => intStr i
  | .flt f => f
  | .str s => jStr s
  | .arr [] => c!"[]"
  | .arr (j :: l) => '[' :: (jPrint j ++ jPrintL l)
  | .obj [] => c!"{}"
  | .obj ((k, j) :: m) => '{' :: (jStr k ++ ':' :: (jPrint j ++ jPrintM m))
/-- The elements of an array after the first one, and the closing bracket. -/
def jPrintL : List Json → Str
  | [] => [']']
  | j :: l => ',' :: (jPrint j ++ jPrintL l)
/-- The members of an object after the first one, and the closing bracket. -/
def jPrintM : List (Str × Json) → Str
  | [] => ['}']
  | (k, j) :: m => ',' :: (jStr k ++ ':' :: (jPrint j ++ jPrintM m))
end

/-- JSON white space. -/
def isWs (c : Char) : Bool := c = ' ' || c = '\n' || c = '\t' || c = '\r'

/-- Skip white space. -/
def skipWs : Str → Str
  | [] => []
  | c :: cs => if isWs c then skipWs cs else c :: cs

/-- Value of a hexadecimal digit (either case). -/
def jHex (c : Char) : Option Nat :=
  let n := c.toNat
  if 48 ≤ n ∧ n ≤ 57 then some (n - 48)
  else if 65 ≤ n ∧ n ≤ 70 then some (n - 55)
  else if 97 ≤ n ∧ n ≤ 102 then some (n - 87)
  else none

/-- Four hexadecimal digits. -/
def hex4 : Str → Option (Nat × Str)
  | a :: b :: c :: d :: rest =>
    match jHex a, jHex b, jHex c, jHex d with
    | some a, some b, some c, some d => some (a * 4096 + b * 256 + c * 16 + d, rest)
    | _, _, _, _ => none
  | _ => none

/-- Single-character escapes. -/
def simpleEsc (c : Char) : Option Char :=
  if c = '"' then some '"'
  else if c = '\\' then some '\\'
  else if c = '/' then some '/'
  else if c = 'b' then some (Char.ofNat 8)
  else if c = 'f' then some (Char.ofNat 12)
  else if c = 'n' then some (Char.ofNat 10)
  else if c = 'r' then some (Char.ofNat 13)
  else if c = 't' then some (Char.ofNat 9)
  else none

/-- Prepend a character to the result of parsing the rest of a string. -/
def consR (c : Char) : Res (Str × Str) → Res (Str × Str)
  | .ok (s, r) => .ok (c :: s, r)
  | .error e => .error e

/-- The rest of a string literal, after the opening quote; the first argument bounds the
number of steps (the length of the input suffices). Control characters, unknown escapes and
unpaired surrogates are refused. -/
def pStr : Nat → Str → Res (Str × Str)
  | 0, _ => .error .parse
  | _ + 1, [] => .error .parse
  | f + 1, c :: cs =>
    if c = '"' then .ok ([], cs)
    else if c = '\\' then
      match cs with
      | [] => .error .parse
      | e :: rest =>
        if e = 'u' then
          match hex4 rest with
          | none => .error .parse
          | some (n, r1) =>
            if 0xDC00 ≤ n ∧ n ≤ 0xDFFF then .error .parse
            else if 0xD800 ≤ n ∧ n ≤ 0xDBFF then
              match r1 with
              | '\\' :: 'u' :: r2 =>
                match hex4 r2 with
                | none => .error .parse
                | some (n2, r3) =>
                  if 0xDC00 ≤ n2 ∧ n2 ≤ 0xDFFF then
                    consR (Char.ofNat (0x10000 + (n - 0xD800) * 1024 + (n2 - 0xDC00))) (pStr f r3)
                  else .error .parse
              | _ => .error .parse
            else consR (Char.ofNat n) (pStr f r1)
        else match simpleEsc e with
          | some ch => consR ch (pStr f rest)
          | none => .error .parse
    else if c.toNat < 32 then .error .parse
    else consR c (pStr f cs)

/-- A decimal digit. -/
def isDigit (c : Char) : Bool := 48 ≤ c.toNat && c.toNat ≤ 57

/-- Longest prefix of digits and the rest. -/
def spanDigits : Str → Str × Str
  | [] => ([], [])
  | c :: cs => if isDigit c then (c :: (spanDigits cs).1, (spanDigits cs).2) else ([], c :: cs)

/-- Value of a digit string. -/
def digitsVal (s : Str) : Nat := s.foldl (fun n c => n * 10 + (c.toNat - 48)) 0

/-- Optional exponent: `none` for a malformed one, otherwise its text and the rest. -/
def pExp : Str → Option (Str × Str)
  | [] => some ([], [])
  | e :: cs =>
    if e = 'e' ∨ e = 'E' then
      match cs with
      | [] => none
      | s :: ds =>
        if s = '+' ∨ s = '-' then
          if (spanDigits ds).1 = [] then none
          else some (e :: s :: (spanDigits ds).1, (spanDigits ds).2)
        else
          if (spanDigits (s :: ds)).1 = [] then none
          else some (e :: (spanDigits (s :: ds)).1, (spanDigits (s :: ds)).2)
    else some ([], e :: cs)

/-- Optional fraction: `none` for a malformed one, otherwise its text and the rest. -/
def pFrac : Str → Option (Str × Str)
  | [] => some ([], [])
  | c :: cs =>
    if c = '.' then
      if (spanDigits cs).1 = [] then none
      else some (c :: (spanDigits cs).1, (spanDigits cs).2)
    else some ([], c :: cs)

/-- Classify an integer literal: `i64`/`u64` where it fits, else a float. -/
def mkInt (neg : Bool) (ds : Str) : Json :=
  let n := digitsVal ds
  if neg then
    if n = 0 then .flt ('-' :: ds)
    else if n ≤ 2 ^ 63 then .int (-(n : Int)) else .flt ('-' :: ds)
  else if n < 2 ^ 64 then .int n else .flt ds

/-- A number without its sign. Simplified: the library refuses exponents that overflow
`f64`, the model keeps every literal. -/
def pUNum (neg : Bool) (s : Str) : Res (Json × Str) :=
  let ds := (spanDigits s).1
  if ds = [] then .error .parse
  else if ds.head? = some '0' ∧ ds.length ≠ 1 then .error .parse
  else match pFrac (spanDigits s).2 with
    | none => .error .parse
    | some (fr, r1) => match pExp r1 with
      | none => .error .parse
      | some (ex, r2) =>
        if fr = [] ∧ ex = [] then .ok (mkInt neg ds, r2)
        else .ok (.flt ((if neg then ['-'] else []) ++ ds ++ fr ++ ex), r2)

/-- A number. -/
def pNum : Str → Res (Json × Str)
  | [] => .error .parse
  | c :: cs => if c = '-' then pUNum true cs else pUNum false (c :: cs)

/-- A fixed word, after its first character. -/
def pWord (w : Str) (j : Json) (s : Str) : Res (Json × Str) :=
  match stripPrefix w s with
  | some r => .ok (j, r)
  | none => .error .parse

/-- What precedes an element: nothing for the first one, a comma for the others. -/
def pSep (first : Bool) (c : Char) (cs : Str) : Res Str :=
  if first then .ok (c :: cs) else if c = ',' then .ok cs else .error .parse

/-- Elements of an array up to and including the closing bracket. -/
def pElems (p : Str → Res (Json × Str)) : Nat → Bool → Str → Res (List Json × Str)
  | 0, _, _ => .error .parse
  | f + 1, first, s =>
    match skipWs s with
    | [] => .error .parse
    | c :: cs =>
      if c = ']' then .ok ([], cs)
      else
        match pSep first c cs with
        | .error e => .error e
        | .ok s' => match p s' with
          | .error e => .error e
          | .ok (j, r) => match pElems p f false r with
            | .error e => .error e
            | .ok (l, r') => .ok (j :: l, r')

/-- Members of an object up to and including the closing bracket. -/
def pMembers (p : Str → Res (Json × Str)) : Nat → Bool → Str → Res (List (Str × Json) × Str)
  | 0, _, _ => .error .parse
  | f + 1, first, s =>
    match skipWs s with
    | [] => .error .parse
    | c :: cs =>
      if c = '}' then .ok ([], cs)
      else
        match pSep first c cs with
        | .error e => .error e
        | .ok s' => match skipWs s' with
        | [] => .error .parse
        | q :: ks =>
          if q = '"' then
            match pStr (ks.length + 1) ks with
            | .error e => .error e
            | .ok (k, r) => match skipWs r with
              | [] => .error .parse
              | d :: r =>
                if d = ':' then
                  match p r with
                  | .error e => .error e
                  | .ok (j, r) => match pMembers p f false r with
                    | .error e => .error e
                    | .ok (m, r') => .ok ((k, j) :: m, r')
                else .error .parse
          else .error .parse

/-- One JSON value, given the parser for nested values (`none` when the recursion limit is
exhausted). -/
def pVal (sub : Option (Str → Res (Json × Str))) (s : Str) : Res (Json × Str) :=
  match skipWs s with
  | [] => .error .parse
  | c :: cs =>
    if c = 'n' then pWord c!"ull" .null cs
    else if c = 't' then pWord c!"rue" (.bool true) cs
    else if c = 'f' then pWord c!"alse" (.bool false) cs
    else if c = '"' then
      match pStr (cs.length + 1) cs with
      | .error e => .error e
      | .ok (t, r) => .ok (.str t, r)
    else if c = '[' then
      match sub with
      | none => .error .recursion
      | some p => match pElems p (cs.length + 1) true cs with
        | .error e => .error e
        | .ok (l, r) => .ok (.arr l, r)
    else if c = '{' then
      match sub with
      | none => .error .recursion
      | some p => match pMembers p (cs.length + 1) true cs with
        | .error e => .error e
        | .ok (m, r) => .ok (.obj m, r)
    else pNum (c :: cs)

/-- A JSON value with at most the given number of nested brackets. -/
def pJson : Nat → Str → Res (Json × Str)
  | 0 => pVal none
  | d + 1 => pVal (some (pJson d))

/-- `serde_json`'s recursion limit: `remaining_depth` starts at 128, is decremented on
entering a bracket and must not reach 0. -/
def jsonMaxDepth : Nat := 127

/-- `serde_json::from_str` up to the choice of the target type: the raw members of objects
in textual order. Trailing characters are refused. -/
def jParseRaw (s : Str) : Res Json :=
  match pJson jsonMaxDepth s with
  | .error e => .error e
  | .ok (j, r) => if skipWs r = [] then .ok j else .error .parse

/-- `serde_json::from_str::<Value>`. -/
def jParse (s : Str) : Res Json :=
  match jParseRaw s with
  | .ok j => .ok j.norm
  | .error e => .error e

/-- `serde_json::from_slice::<Value>`. Simplified: the whole input must be UTF-8 (the
library only looks at the bytes it reaches). -/
def jParseBytes (b : Bytes) : Res Json :=
  match utf8Dec b with
  | some s => jParse s
  | none => .error .decode

end Oid4vp
