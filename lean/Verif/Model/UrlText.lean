import Verif.Model.JsonText
import Verif.Model.Form
/-!
# Escapes, paths and hosts of URLs (crate `url`, the WHATWG URL standard)

The library hands texts to `Url::parse` wherever it reads an address
(src/core/authorization_request/mod.rs:183-221, src/core/authorization_request/parameters.rs,
src/wallet.rs:92-104, src/verifier/request_builder.rs:94-110,140-160). The crate follows the URL standard of
the WHATWG (https://url.spec.whatwg.org), whose states are modelled here one by one. Simplified: the scheme
`file` has no rules of its own here (it is read like a scheme the standard does not know); processing of
international domain names is `idna` below.
-/

set_option autoImplicit false

namespace Oid4vp

/-! ## Characters -/

/-- ASCII letter. -/
def isAlpha (c : Char) : Bool :=
  (65 ≤ c.toNat && c.toNat ≤ 90) || (97 ≤ c.toNat && c.toNat ≤ 122)

/-- Lower-case ASCII letter. -/
def isLower (c : Char) : Bool := 97 ≤ c.toNat && c.toNat ≤ 122

/-- `u8::to_ascii_lowercase` on a character. -/
def asciiLower (c : Char) : Char :=
  if 65 ≤ c.toNat && c.toNat ≤ 90 then Char.ofNat (c.toNat + 32) else c

/-- Visible ASCII character. -/
def isGraphic (c : Char) : Bool := 0x20 < c.toNat && c.toNat < 0x7F

/-- Characters that stay as they are in a path that is not hierarchical and in a host of a scheme unknown
to the standard (`percent_encoding::CONTROLS` are escaped). -/
def opaqueKeep (c : Char) : Bool := 0x20 ≤ c.toNat && c.toNat < 0x7F

/-- Characters that stay as they are in a fragment (crate `url`, parser.rs: `FRAGMENT`). -/
def fragmentKeep (c : Char) : Bool := isGraphic c && !(c!"\"<>`").contains c

/-- Characters that stay as they are in a path (crate `url`, parser.rs: `PATH`; the caret is escaped only in
later revisions of the standard). -/
def pathKeep (c : Char) : Bool := fragmentKeep c && !(c!"#?{}").contains c

/-- Characters that stay as they are in a user name or password (crate `url`, parser.rs: `USERINFO`). -/
def userKeep (c : Char) : Bool := pathKeep c && !(c!"/:;=@[\\]^|").contains c

/-- Characters that stay as they are in a query (crate `url`, parser.rs: `QUERY`, `SPECIAL_QUERY`). -/
def queryKeep (special : Bool) (c : Char) : Bool :=
  isGraphic c && !(c!"\"#<>").contains c && !(special && c = '\'')

/-- Escape of a byte (crate `percent-encoding`). -/
def pctByte (b : UInt8) : Str := ['%', hexUpper (b.toNat / 16), hexUpper (b.toNat % 16)]

/-- `utf8_percent_encode`: the characters that are not kept are replaced by the escapes of their bytes. -/
def escape (keep : Char → Bool) (s : Str) : Str :=
  s.flatMap (fun c => if keep c then [c] else (utf8Char c).flatMap pctByte)

/-- `percent_decode`: escapes are replaced by their bytes, malformed ones are kept. -/
def unescape : Bytes → Bytes
  | [] => []
  | b :: bs =>
    if b.toNat = 0x25 then
      match bs with
      | h :: l :: rest =>
        match hexVal (Char.ofNat h.toNat), hexVal (Char.ofNat l.toNat) with
        | some x, some y => UInt8.ofNat (x * 16 + y) :: unescape rest
        | _, _ => b :: unescape (h :: l :: rest)
      | [h] => b :: unescape [h]
      | [] => [b]
    else b :: unescape bs

/-! ## Paths -/

/-- Segment meaning the same directory (crate `url`, parser.rs, `parse_path`). -/
def isDot (s : Str) : Bool := [c!".", c!"%2e", c!"%2E"].contains s

/-- Segment meaning the directory above. -/
def isDotDot (s : Str) : Bool :=
  [c!"..", c!"%2e%2e", c!"%2e%2E", c!"%2E%2e", c!"%2E%2E", c!"%2e.", c!"%2E.", c!".%2e", c!".%2E"].contains s

/-- Separator of path segments. -/
def isSlash (special : Bool) (c : Char) : Bool := c = '/' || (special && c = '\\')

/-- The segments of a text. -/
def segments (special : Bool) : Str → List Str
  | [] => [[]]
  | c :: cs =>
    if isSlash special c then [] :: segments special cs
    else match segments special cs with
      | [] => [[c]]
      | s :: ss => (c :: s) :: ss

/-- The path state: segments are collected, dot segments dropped. The last one leaves an empty segment if it
is a dot segment. -/
def walk (acc : List Str) : List Str → List Str
  | [] => acc
  | [s] =>
    if isDotDot s then acc.dropLast ++ [[]] else if isDot s then acc ++ [[]] else acc ++ [s]
  | s :: t :: ss =>
    if isDotDot s then walk acc.dropLast (t :: ss) else if isDot s then walk acc (t :: ss)
    else walk (acc ++ [s]) (t :: ss)

/-- The path for the text after its first slash. -/
def hierPath (special : Bool) (s : Str) : Str :=
  '/' :: joinWith '/' (walk [] ((segments special s).map (escape pathKeep)))

/-! ## Numbers and addresses -/

/-- Value of digits in a base, most significant first. -/
def radixVal (r : Nat) : Nat → Str → Option Nat
  | acc, [] => some acc
  | acc, c :: cs => match hexVal c with
    | some d => if d < r then radixVal r (acc * r + d) cs else none
    | none => none

/-- `parse_ipv4number` (crate `url`, host.rs): decimal, octal after `0`, hexadecimal after `0x`. (Numbers that
do not fit into 32 bits are refused by `parseIpv4`.) -/
def ipv4Number : Str → Option Nat
  | [] => none
  | ['0'] => some 0
  | '0' :: 'x' :: cs => radixVal 16 0 cs
  | '0' :: 'X' :: cs => radixVal 16 0 cs
  | '0' :: cs => radixVal 8 0 cs
  | cs => radixVal 10 0 cs

/-- The parts of a host between dots, without an empty last one. -/
def hostParts (s : Str) : List Str :=
  let ps := splitOn '.' s
  if 1 < ps.length ∧ ps.getLast? = some [] then ps.dropLast else ps

/-- `ends_in_a_number` (crate `url`, host.rs). -/
def endsInNumber (s : Str) : Bool :=
  match (hostParts s).getLast? with
  | some p => (p != [] && p.all isDigit) || (ipv4Number p).isSome
  | none => false

/-- All numbers of a list of texts. -/
def ipv4Numbers : List Str → Option (List Nat)
  | [] => some []
  | p :: ps => match ipv4Number p, ipv4Numbers ps with
    | some n, some ns => some (n :: ns)
    | _, _ => none

/-- `parse_ipv4addr` (crate `url`, host.rs): up to four numbers, the last one filling what is left. -/
def parseIpv4 (s : Str) : Option Nat :=
  match ipv4Numbers (hostParts s) with
  | some [d] => if d < 2 ^ 32 then some d else none
  | some [a, d] => if a < 256 ∧ d < 2 ^ 24 then some (a * 2 ^ 24 + d) else none
  | some [a, b, d] =>
    if a < 256 ∧ b < 256 ∧ d < 2 ^ 16 then some (a * 2 ^ 24 + b * 2 ^ 16 + d) else none
  | some [a, b, c, d] =>
    if a < 256 ∧ b < 256 ∧ c < 256 ∧ d < 256 then some (a * 2 ^ 24 + b * 2 ^ 16 + c * 2 ^ 8 + d) else none
  | _ => none

/-- `Ipv4Addr::fmt`. -/
def printIpv4 (n : Nat) : Str :=
  natStr (n / 2 ^ 24 % 256) ++ '.' :: (natStr (n / 2 ^ 16 % 256) ++ '.' ::
    (natStr (n / 2 ^ 8 % 256) ++ '.' :: natStr (n % 256)))

/-- A piece of an IPv6 address: one to four hexadecimal digits. -/
def ipv6Piece (s : Str) : Option Nat :=
  if s = [] ∨ 4 < s.length then none else radixVal 16 0 s

/-- A number of an IPv4 address inside an IPv6 address: decimal, below 256, without leading zeros. -/
def octet : Str → Option Nat
  | [] => none
  | ['0'] => some 0
  | '0' :: _ => none
  | cs => match radixVal 10 0 cs with
    | some n => if n < 256 then some n else none
    | none => none

/-- The pieces of the last part of an IPv6 address. -/
def ipv6Last (s : Str) : Option (List Nat) :=
  match ipv6Piece s with
  | some n => some [n]
  | none => match splitOn '.' s with
    | [a, b, c, d] => match octet a, octet b, octet c, octet d with
      | some a, some b, some c, some d => some [a * 256 + b, c * 256 + d]
      | _, _, _, _ => none
    | _ => none

/-- The pieces of parts of an IPv6 address, the last of which may be an IPv4 address if `tail`. -/
def ipv6Parts (tail : Bool) : List Str → Option (List Nat)
  | [] => some []
  | [p] => if tail then ipv6Last p else (ipv6Piece p).map (fun n => [n])
  | p :: q :: ps => match ipv6Piece p, ipv6Parts tail (q :: ps) with
    | some n, some ns => some (n :: ns)
    | _, _ => none

/-- The pieces of a text on one side of `::`, which may be empty. -/
def ipv6Side (tail : Bool) (s : Str) : Option (List Nat) :=
  if s = [] then some [] else ipv6Parts tail (splitOn ':' s)

/-- Split at the first `::`. -/
def splitDouble : Str → Option (Str × Str)
  | [] => none
  | c :: cs =>
    match c, cs with
    | ':', ':' :: r => some ([], r)
    | _, _ => match splitDouble cs with
      | some (a, b) => some (c :: a, b)
      | none => none

/-- `parse_ipv6addr` (crate `url`, host.rs): eight pieces, or fewer around `::`. -/
def parseIpv6 (s : Str) : Option (List Nat) :=
  match splitDouble s with
  | none => match ipv6Parts true (splitOn ':' s) with
    | some ps => if ps.length = 8 then some ps else none
    | none => none
  | some (a, b) => match ipv6Side false a, ipv6Side true b with
    | some xs, some ys =>
      if xs.length + ys.length ≤ 7 then
        some (xs ++ List.replicate (8 - xs.length - ys.length) 0 ++ ys)
      else none
    | _, _ => none

/-- Number of zeros at the head. -/
def zeros : List Nat → Nat
  | [] => 0
  | n :: ns => if n = 0 then zeros ns + 1 else 0

/-- `longest_zero_sequence` (crate `url`, host.rs): start and length of the first longest run of zeros. -/
def longestZeros : List Nat → Nat × Nat
  | [] => (0, 0)
  | n :: ns =>
    let (i, k) := longestZeros ns
    if k ≤ zeros (n :: ns) then (0, zeros (n :: ns)) else (i + 1, k)

/-- `k` lower-case hexadecimal digits of `n`, most significant first. -/
def hexDigits : Nat → Nat → Str
  | 0, _ => []
  | k + 1, n => hexDigits k (n / 16) ++ [hexLower (n % 16)]

/-- Hexadecimal digits without leading zeros (`{:x}`), for numbers below 2^16. -/
def hexStr (n : Nat) : Str :=
  if n < 16 then hexDigits 1 n else if n < 256 then hexDigits 2 n else if n < 4096 then hexDigits 3 n
  else hexDigits 4 n

/-- `write_ipv6` (crate `url`, host.rs). -/
def printIpv6 (ps : List Nat) : Str :=
  let (i, k) := longestZeros ps
  if k < 2 then joinWith ':' (ps.map hexStr)
  else joinWith ':' ((ps.take i).map hexStr) ++ ':' :: ':' :: joinWith ':' ((ps.drop (i + k)).map hexStr)

/-! ## Hosts -/

/-- Characters that no host of a scheme unknown to the standard has (crate `url`, host.rs,
`parse_opaque`). -/
def forbiddenHost (c : Char) : Bool := (c!"\x00\t\n\x0d #/:<>?@[\\]^|").contains c

/-- Characters that no domain has (crate `url`, host.rs, `parse`). -/
def forbiddenDomain (c : Char) : Bool :=
  forbiddenHost c || c.toNat < 0x20 || c = '%' || c.toNat = 0x7F

/-- A label of the domain is encoded international text (`xn--`). -/
def hasAce (s : Str) : Bool :=
  (splitOn '.' (s.map asciiLower)).any (startsWith c!"xn--")

/-- Domain-to-ASCII of crate `idna` for domains that are not plain ASCII or have `xn--` labels, applied to the
bytes of the domain. Not modelled: an unknown function of which is assumed that its results are ASCII texts
without capital letters, that results with `xn--` labels are results for themselves, and that domains with
forbidden ASCII characters have no result. -/
opaque idna : { f : Bytes → Option Str // ∀ b d, f b = some d →
    (∀ c ∈ d, c.toNat < 128 ∧ asciiLower c = c) ∧ (hasAce d = true → f (utf8 d) = some d) ∧
    ∀ x ∈ b, x.toNat < 128 → forbiddenDomain (Char.ofNat x.toNat) = false } :=
  ⟨fun _ => none, fun _ _ h => nomatch h⟩

/-- Domain-to-ASCII (crate `idna`, `domain_to_ascii`): plain ASCII is turned into small letters. -/
def domainToAscii (b : Bytes) : Option Str :=
  let s := b.map (fun x => Char.ofNat x.toNat)
  if b.all (fun x => x.toNat < 128) && !hasAce s then some (s.map asciiLower) else idna.val b

/-- A host between brackets. -/
def parseBracketed (s : Str) : Option Str :=
  match s.getLast? with
  | some ']' => (parseIpv6 s.dropLast).map (fun ps => '[' :: (printIpv6 ps ++ [']']))
  | _ => none

/-- `Host::parse_opaque` and its text (crate `url`, host.rs). -/
def opaqueHost (s : Str) : Option Str :=
  match s with
  | '[' :: r => parseBracketed r
  | s => if s.any forbiddenHost then none else some (escape opaqueKeep s)

/-- `Host::parse` and its text (crate `url`, host.rs). -/
def domainHost (s : Str) : Option Str :=
  match s with
  | '[' :: r => parseBracketed r
  | s => match domainToAscii (unescape (utf8 s)) with
    | none => none
    | some d =>
      if d = [] ∨ d.any forbiddenDomain = true then none
      else if endsInNumber d then (parseIpv4 d).map printIpv4
      else some d

/-! ## Authorities -/

/-- Special schemes of the URL standard, with their default ports (crate `url`, parser.rs,
`default_port`). -/
def specialPorts : List (Str × Nat) :=
  [(c!"http", 80), (c!"https", 443), (c!"ws", 80), (c!"wss", 443), (c!"ftp", 21)]

/-- Split a host and its port at the first colon outside brackets. -/
def splitPort (inside : Bool) : Str → Str × Option Str
  | [] => ([], none)
  | c :: cs =>
    if c = ':' ∧ inside = false then ([], some cs)
    else
      let (h, p) := splitPort (if c = '[' then true else if c = ']' then false else inside) cs
      (c :: h, p)

/-- The text of a port: nothing for no digits and for the default port. -/
def portText (default : Option Nat) : Option Str → Option Str
  | none => some []
  | some ds =>
    if ds.all isDigit then
      if ds = [] then some []
      else if 65535 < digitsVal ds then none
      else if some (digitsVal ds) = default then some []
      else some (':' :: natStr (digitsVal ds))
    else none

/-- The text of user name and password. -/
def userText (s : Str) : Str :=
  let (u, p) := match splitOnce ':' s with
    | some (u, p) => (escape userKeep u, escape userKeep p)
    | none => (escape userKeep s, [])
  if u = [] ∧ p = [] then []
  else u ++ ((if p = [] then [] else ':' :: p) ++ ['@'])

/-- The same if there are any. -/
def credText : Option Str → Str
  | some u => userText u
  | none => []

/-- Authority, host and port states: the text of the authority. -/
def normAuthority (scheme s : Str) : Option Str :=
  let special := mget scheme specialPorts
  let (user, hp) := match rsplitOnce '@' s with
    | some (u, hp) => (some u, hp)
    | none => (none, s)
  let (h, p) := splitPort false hp
  if h = [] ∧ (user.isSome = true ∨ p.isSome = true ∨ special.isSome = true) then none
  else
    match (if special.isSome then domainHost h else opaqueHost h), portText special p with
    | some host, some port => some (credText user ++ (host ++ port))
    | _, _ => none

end Oid4vp
