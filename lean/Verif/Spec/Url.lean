import Verif.Model.Url
import Verif.Spec.Uuid
/-!
# Texts of URLs (the URL standard of the WHATWG)

Nothing here refers to the parser, to its classes of characters or to its printer; domain names that are not
plain ASCII are the business of the unknown function `idna`.
-/

set_option autoImplicit false

namespace Oid4vp.Spec

/-! ## Characters and escapes -/

/-- Capital letters. -/
def capitals : Str := c!"ABCDEFGHIJKLMNOPQRSTUVWXYZ"

/-- Small letters, in the same order. -/
def smalls : Str := c!"abcdefghijklmnopqrstuvwxyz"

/-- The digits of numbers. -/
def decimals : Str := c!"0123456789"

/-- The visible ASCII characters. -/
def visible : Str := capitals ++ smalls ++ decimals ++ c!"!\"#$%&'()*+,-./:;<=>?@[\\]^_`{|}~"

/-- The character with a capital letter replaced by the small one. -/
def LowerOf (a b : Char) : Prop := (a, b) ∈ capitals.zip smalls ∨ (a ∉ capitals ∧ b = a)

/-- The lists are as long as each other, and their members are in the relation one by one. -/
def Pointwise {α β : Type} (R : α → β → Prop) (l : List α) (m : List β) : Prop :=
  l.length = m.length ∧ ∀ p ∈ l.zip m, R p.1 p.2

/-- The text with capital letters replaced by small ones. -/
def Lowered : Str → Str → Prop := Pointwise LowerOf

/-- The escape of a byte: `%` and two digits. -/
def byteEscape (b : UInt8) : Str :=
  '%' :: [c!"0123456789ABCDEF".getD (b.toNat / 16) ' ', c!"0123456789ABCDEF".getD (b.toNat % 16) ' ']

/-- The text with all characters that are not kept replaced by the escapes of their UTF-8 bytes. -/
inductive Escaped (Kept : Char → Prop) : Str → Str → Prop
  | nil : Escaped Kept [] []
  | keep {c : Char} {s t : Str} : Kept c → Escaped Kept s t → Escaped Kept (c :: s) (c :: t)
  | escape {c : Char} {s t : Str} : ¬ Kept c → Escaped Kept s t →
      Escaped Kept (c :: s) ((String.utf8EncodeChar c).flatMap byteEscape ++ t)

/-- The visible characters except some. -/
def VisibleBut (s : Str) (c : Char) : Prop := c ∈ visible ∧ c ∉ s

/-- What is not escaped in an opaque path or host. -/
def OpaqueKept (c : Char) : Prop := c = ' ' ∨ c ∈ visible

/-- What is not escaped in a query. -/
def QueryKept (special : Bool) (c : Char) : Prop :=
  VisibleBut c!"\"#<>" c ∧ ¬ (special = true ∧ c = '\'')

/-- What is not escaped in a fragment. -/
def FragmentKept : Char → Prop := VisibleBut c!"\"<>`"

/-- What is not escaped in a path. -/
def PathKept : Char → Prop := VisibleBut c!"\"<>`#?{}"

/-- What is not escaped in a user name or password. -/
def UserKept : Char → Prop := VisibleBut c!"\"<>`#?{}/:;=@[\\]^|"

/-! ## Schemes -/

/-- A scheme as written, and its name: a letter, then letters, digits, `+`, `-` and `.`; capital
letters are the same as small ones. -/
def SchemeText (written name : Str) : Prop :=
  (∃ c cs, written = c :: cs ∧ c ∈ capitals ++ smalls ∧
    ∀ x ∈ cs, x ∈ capitals ++ smalls ++ decimals ++ c!"+-.") ∧ Lowered written name

/-- The special schemes and their ports. -/
inductive PortOf : Str → Nat → Prop
  | http : PortOf c!"http" 80
  | https : PortOf c!"https" 443
  | ws : PortOf c!"ws" 80
  | wss : PortOf c!"wss" 443
  | ftp : PortOf c!"ftp" 21

/-- The scheme is special: its URLs have a host, and backslashes count as slashes. -/
def Special (scheme : Str) : Prop := ∃ p, PortOf scheme p

/-! ## Paths -/

/-- What separates segments. -/
def Separator (special : Bool) (c : Char) : Prop := c = '/' ∨ (special = true ∧ c = '\\')

/-- The segments of a text. -/
inductive SegmentsOf (special : Bool) : Str → List Str → Prop
  | one {s : Str} : (∀ c ∈ s, ¬ Separator special c) → SegmentsOf special s [s]
  | more {s r : Str} {d : Char} {l : List Str} : (∀ c ∈ s, ¬ Separator special c) → Separator special d →
      SegmentsOf special r l → SegmentsOf special (s ++ d :: r) (s :: l)

/-- A dot, which may be escaped. -/
def DotText (s : Str) : Prop := s = c!"." ∨ s = c!"%2e" ∨ s = c!"%2E"

/-- The segment for the directory above. -/
def UpText (s : Str) : Prop := ∃ a b, DotText a ∧ DotText b ∧ s = a ++ b

/-- The directory that one is in after walking through the segments, from the root. -/
inductive DirAfter : List Str → List Str → Prop
  | root : DirAfter [] []
  | into {l d : List Str} {s : Str} : DirAfter l d → ¬ DotText s → ¬ UpText s → DirAfter (l ++ [s]) (d ++ [s])
  | stay {l d : List Str} {s : Str} : DirAfter l d → DotText s → DirAfter (l ++ [s]) d
  | up {l d : List Str} {s : Str} : DirAfter l d → UpText s → DirAfter (l ++ [s]) d.dropLast

/-- The segments of the path: the directory after all segments but the last, and the last one, which is empty if
it names a directory by dots. -/
inductive PathSegments : List Str → List Str → Prop
  | file {l d : List Str} {s : Str} : DirAfter l d → ¬ DotText s → ¬ UpText s → PathSegments (l ++ [s]) (d ++ [s])
  | dir {l d : List Str} {s : Str} : DotText s ∨ UpText s → DirAfter (l ++ [s]) d →
      PathSegments (l ++ [s]) (d ++ [[]])

/-- The path for the text after the first slash. -/
def PathText (special : Bool) (raw path : Str) : Prop :=
  ∃ segs escaped walked, SegmentsOf special raw segs ∧ Pointwise (Escaped PathKept) segs escaped ∧
    PathSegments escaped walked ∧ path = '/' :: List.intercalate c!"/" walked

/-! ## Addresses -/

/-- The number written by digits in a base. -/
inductive NumberIn (base : Nat) : Str → Nat → Prop
  | nil : NumberIn base [] 0
  | digit {s : Str} {n d : Nat} {c : Char} : NumberIn base s n → HexChar c d → d < base →
      NumberIn base (s ++ [c]) (n * base + d)

/-- A number in an IPv4 address: hexadecimal after `0x`, octal after `0`, decimal otherwise. -/
inductive Ipv4Part : Str → Nat → Prop
  | hex {x : Char} {s : Str} {n : Nat} : x = 'x' ∨ x = 'X' → NumberIn 16 s n → Ipv4Part ('0' :: x :: s) n
  | octal {s : Str} {n : Nat} : s ≠ [] → NumberIn 8 s n → Ipv4Part ('0' :: s) n
  | decimal {c : Char} {s : Str} {n : Nat} : c ≠ '0' ∨ s = [] → NumberIn 10 (c :: s) n → Ipv4Part (c :: s) n

/-- The parts of a domain: what is between the dots, an empty last part not counting. -/
def DomainParts (d : Str) (parts : List Str) : Prop :=
  (∀ p ∈ parts, '.' ∉ p) ∧ parts ≠ [] ∧
    ((d = List.intercalate c!"." parts ∧ (2 ≤ parts.length → parts.getLast? ≠ some [])) ∨
      d = List.intercalate c!"." parts ++ c!".")

/-- The domain is meant to be an IPv4 address: its last part is a number. -/
def LooksIpv4 (d : Str) : Prop :=
  ∃ parts last, DomainParts d (parts ++ [last]) ∧
    ((last ≠ [] ∧ ∀ c ∈ last, c ∈ decimals) ∨ ∃ n, Ipv4Part last n)

/-- The IPv4 address: up to three numbers for a byte each, and one for the bytes that are left. -/
def Ipv4Text (d : Str) (n : Nat) : Prop :=
  ∃ (parts : List Str) (bytes : List Nat) (last : Nat), DomainParts d parts ∧ Pointwise Ipv4Part parts (bytes ++ [last]) ∧
    bytes.length ≤ 3 ∧ (∀ b ∈ bytes, b < 256) ∧ last < 256 ^ (4 - bytes.length) ∧
    n = bytes.foldl (fun a b => a * 256 + b) 0 * 256 ^ (4 - bytes.length) + last

/-- The number in decimal digits. -/
def decimalText (n : Nat) : Str := Nat.toDigits 10 n

/-- Four bytes with dots between them. -/
def dottedText (n : Nat) : Str :=
  List.intercalate c!"." [decimalText (n / 256 ^ 3 % 256), decimalText (n / 256 ^ 2 % 256),
    decimalText (n / 256 % 256), decimalText (n % 256)]

/-- A piece of an IPv6 address. -/
def Ipv6Piece (s : Str) (n : Nat) : Prop := s ≠ [] ∧ s.length ≤ 4 ∧ NumberIn 16 s n

/-- A byte in decimal digits without leading zeros. -/
def ByteText (s : Str) (n : Nat) : Prop := n < 256 ∧ s = decimalText n

/-- Pieces of an IPv6 address with colons between them; the last two may be written as an IPv4 address if
`tail`. -/
inductive Ipv6Pieces (tail : Bool) : Str → List Nat → Prop
  | one {s : Str} {n : Nat} : Ipv6Piece s n → Ipv6Pieces tail s [n]
  | ipv4 {a b c d : Str} {k l m n : Nat} : tail = true → ByteText a k → ByteText b l → ByteText c m → ByteText d n →
      Ipv6Pieces tail (List.intercalate c!"." [a, b, c, d]) [k * 256 + l, m * 256 + n]
  | more {s t : Str} {n : Nat} {l : List Nat} : Ipv6Piece s n → Ipv6Pieces tail t l →
      Ipv6Pieces tail (s ++ ':' :: t) (n :: l)

/-- The eight pieces of an IPv6 address; `::` stands for one or more zeros. -/
inductive Ipv6Text : Str → List Nat → Prop
  | full {s : Str} {l : List Nat} : Ipv6Pieces true s l → l.length = 8 → Ipv6Text s l
  | short {a b : Str} {l m : List Nat} {k : Nat} : (a = [] ∧ l = []) ∨ Ipv6Pieces false a l →
      (b = [] ∧ m = []) ∨ Ipv6Pieces true b m → 1 ≤ k → l.length + k + m.length = 8 →
      Ipv6Text (a ++ c!"::" ++ b) (l ++ List.replicate k 0 ++ m)

/-- Pieces in small hexadecimal digits with colons between them. -/
def piecesText (l : List Nat) : Str := List.intercalate c!":" (l.map (Nat.toDigits 16))

/-- The text of an IPv6 address: the longest run of zeros, the first of the longest ones, is written `::` if it has
two or more. -/
inductive Ipv6Canonical : List Nat → Str → Prop
  | plain {l : List Nat} : (∀ a k b, l = a ++ List.replicate k 0 ++ b → k ≤ 1) → Ipv6Canonical l (piecesText l)
  | short {a b : List Nat} {k : Nat} : 2 ≤ k →
      (∀ a' k' b', a ++ List.replicate k 0 ++ b = a' ++ List.replicate k' 0 ++ b' →
        k' ≤ k ∧ (k' = k → a.length ≤ a'.length)) →
      Ipv6Canonical (a ++ List.replicate k 0 ++ b) (piecesText a ++ c!"::" ++ piecesText b)

/-! ## Hosts -/

/-- Characters that are in no host. -/
def notInHosts : Str := c!"\x00\t\n\x0d #/:<>?@[\\]^|"

/-- Characters that may be in a domain: visible ones. -/
def DomainKept : Char → Prop := VisibleBut (notInHosts ++ c!"%")

/-- Escapes replaced by their bytes. -/
inductive Unescaped : Bytes → Bytes → Prop
  | nil : Unescaped [] []
  | escape {x y : Char} {k l : Nat} {b c : Bytes} : HexChar x k → HexChar y l → Unescaped b c →
      Unescaped (0x25 :: UInt8.ofNat x.toNat :: UInt8.ofNat y.toNat :: b) (UInt8.ofNat (k * 16 + l) :: c)
  | other {a : UInt8} {b c : Bytes} :
      (∀ x y k l r, HexChar x k → HexChar y l →
        a :: b ≠ 0x25 :: UInt8.ofNat x.toNat :: UInt8.ofNat y.toNat :: r) →
      Unescaped b c → Unescaped (a :: b) (a :: c)

/-- The domain has a label of encoded international text. -/
def AceDomain (d : Str) : Prop :=
  ∃ a l b low, d = a ++ l ++ b ∧ (a = [] ∨ a.getLast? = some '.') ∧ Lowered l low ∧ low = c!"xn--"

/-- The domain in ASCII. Plain ASCII is put into small letters. -/
inductive AsciiDomain : Bytes → Str → Prop
  | plain {b : Bytes} {s d : Str} : b = s.map (fun c => UInt8.ofNat c.toNat) → (∀ c ∈ s, c.toNat < 128) →
      ¬ AceDomain s → Lowered s d → AsciiDomain b d
  | other {b : Bytes} {d : Str} :
      (∀ s : Str, b = s.map (fun c => UInt8.ofNat c.toNat) → (∀ c ∈ s, c.toNat < 128) → AceDomain s) →
      idna.val b = some d → AsciiDomain b d

/-- A host as written and its text. -/
inductive HostText (special : Bool) : Str → Str → Prop
  | ipv6 {s t : Str} {l : List Nat} : Ipv6Text s l → Ipv6Canonical l t →
      HostText special (c!"[" ++ s ++ c!"]") (c!"[" ++ t ++ c!"]")
  | unknown {s t : Str} : special = false → (∀ c ∈ s, c ∉ notInHosts) → Escaped OpaqueKept s t →
      HostText special s t
  | domain {s d : Str} {b : Bytes} : special = true → s.head? ≠ some '[' →
      Unescaped (s.flatMap String.utf8EncodeChar) b → AsciiDomain b d →
      d ≠ [] → (∀ c ∈ d, DomainKept c) → ¬ LooksIpv4 d → HostText special s d
  | ipv4 {s d : Str} {b : Bytes} {n : Nat} : special = true → s.head? ≠ some '[' →
      Unescaped (s.flatMap String.utf8EncodeChar) b → AsciiDomain b d →
      d ≠ [] → (∀ c ∈ d, DomainKept c) → LooksIpv4 d → Ipv4Text d n → HostText special s (dottedText n)

/-! ## Authorities -/

/-- An optional part, written after its mark. -/
def marked (mark : Str) : Option Str → Str
  | some t => mark ++ t
  | none => []

/-- The credentials as written, and their text: nothing if they are empty, no colon without a password. -/
def UserText (raw text : Str) : Prop :=
  ∃ (name : Str) (password : Option Str) (name' password' : Str),
    raw = name ++ marked c!":" password ∧ ':' ∉ name ∧
    Escaped UserKept name name' ∧ Escaped UserKept (password.getD []) password' ∧
    text = if name' = [] ∧ password' = [] then [] else
      if password' = [] then name' ++ c!"@" else name' ++ c!":" ++ password' ++ c!"@"

/-- The port as written after the colon, and its text: nothing for the port of the scheme. -/
inductive PortText (scheme : Str) : Option Str → Str → Prop
  | none : PortText scheme none []
  | empty : PortText scheme (some []) []
  | same {ds : Str} {n : Nat} : ds ≠ [] → NumberIn 10 ds n → PortOf scheme n → PortText scheme (some ds) []
  | other {ds : Str} {n : Nat} : ds ≠ [] → NumberIn 10 ds n → n ≤ 65535 → ¬ PortOf scheme n →
      PortText scheme (some ds) (c!":" ++ decimalText n)

/-- An authority as written, `[credentials@]host[:port]`, and its text. The host may only be empty for schemes that
are not special, and then has neither credentials nor port. -/
def AuthorityText (scheme : Str) (special : Bool) (raw text : Str) : Prop :=
  ∃ (user : Option Str) (host : Str) (port : Option Str) (user' host' port' : Str),
    raw = (match user with | some u => u ++ c!"@" | none => []) ++ host ++ marked c!":" port ∧
    '@' ∉ host ++ marked c!":" port ∧
    (host = [] → special = false ∧ user = none ∧ port = none) ∧
    (match user with | some u => UserText u user' | none => user' = []) ∧
    HostText special host host' ∧ PortText scheme port port' ∧ text = user' ++ host' ++ port'

/-- What follows the scheme, up to the query: authority and path. -/
inductive HierText (scheme : Str) : Str → Option Str → Str → Prop
  | web {slashes raw auth path : Str} : Special scheme → (∀ c ∈ slashes, Separator true c) →
      (∀ c ∈ raw, ¬ Separator true c) → AuthorityText scheme true raw auth → PathText true [] path →
      HierText scheme (slashes ++ raw) (some auth) path
  | webPath {slashes raw rest auth path : Str} {d : Char} : Special scheme → (∀ c ∈ slashes, Separator true c) →
      (∀ c ∈ raw, ¬ Separator true c) → AuthorityText scheme true raw auth → Separator true d →
      PathText true rest path → HierText scheme (slashes ++ raw ++ d :: rest) (some auth) path
  | authority {raw auth : Str} : ¬ Special scheme → '/' ∉ raw → AuthorityText scheme false raw auth →
      HierText scheme (c!"//" ++ raw) (some auth) []
  | authorityPath {raw rest auth path : Str} : ¬ Special scheme → '/' ∉ raw →
      AuthorityText scheme false raw auth → PathText false rest path →
      HierText scheme (c!"//" ++ raw ++ c!"/" ++ rest) (some auth) path
  | rooted {raw path : Str} : ¬ Special scheme → raw.head? ≠ some '/' → PathText false raw path →
      HierText scheme (c!"/" ++ raw) none path
  | «opaque» {raw path : Str} : ¬ Special scheme → raw.head? ≠ some '/' → Escaped OpaqueKept raw path →
      HierText scheme raw none path

/-! ## URLs -/

/-- The text that counts: without control characters and spaces at both ends, and without tabs and line ends. -/
def Cleaned (s t : Str) : Prop :=
  ∃ l m r, s = l ++ m ++ r ∧ (∀ c ∈ l ++ r, c.toNat ≤ 32) ∧
    (∀ c, m.head? = some c ∨ m.getLast? = some c → 32 < c.toNat) ∧
    t = m.filter (· ∉ c!"\t\n\x0d")

/-- An optional part as written and its text. -/
inductive OptEscaped (Kept : Char → Prop) : Option Str → Option Str → Prop
  | none : OptEscaped Kept none none
  | some {s t : Str} : Escaped Kept s t → OptEscaped Kept (some s) (some t)

/-- The text denotes the URL: `scheme ":" authority and path ["?" query] ["#" fragment]`. -/
def UrlText (s : Str) (u : Url) : Prop :=
  ∃ (scheme hier : Str) (query fragment : Option Str),
    Cleaned s (scheme ++ c!":" ++ hier ++ marked c!"?" query ++ marked c!"#" fragment) ∧
    SchemeText scheme u.scheme ∧ '?' ∉ hier ∧ '#' ∉ hier ++ marked c!"?" query ∧
    HierText u.scheme hier u.authority u.path ∧
    (∃ special, (special = true ↔ Special u.scheme) ∧ OptEscaped (QueryKept special) query u.query) ∧
    OptEscaped FragmentKept fragment u.fragment

end Oid4vp.Spec
