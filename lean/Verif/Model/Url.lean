import Verif.Model.UrlText
/-!
# URLs (crate `url`) and UUIDs (crate `uuid`)

The library treats `url::Url` as opaque data with a parser, a printer and a few accessors
(src/core/authorization_request/mod.rs:176-221, src/verifier/request_builder.rs:94-110,140-160,
src/wallet.rs:92-104). The model has the components of a URL as the crate serialises them; reading a text
normalises them (see Model/UrlText for the parts and for what is simplified).
-/

set_option autoImplicit false

namespace Oid4vp

/-- `url::Url`, by components as they are serialised. `authority = none` is the absence of `//`. A path that
does not begin with `/` is an opaque one, or the empty one after an authority. -/
structure Url where
  scheme : Str
  authority : Option Str
  path : Str
  query : Option Str
  fragment : Option Str
deriving DecidableEq, Repr, Inhabited

/-- Characters of a scheme after the first one (crate `url`, parser.rs, `parse_scheme`), upper-case
allowed. -/
def isSchemeChar (c : Char) : Bool :=
  isAlpha c || isDigit c || c = '+' || c = '-' || c = '.'

/-- The `//authority` part as printed. -/
def authText : Option Str → Str
  | some a => '/' :: '/' :: a
  | none => []

/-- An optional component with its leading delimiter. -/
def optText (c : Char) : Option Str → Str
  | some s => c :: s
  | none => []

/-- What keeps a path that begins with two slashes from being read as an authority (crate `url`, parser.rs,
`with_query_and_fragment`). -/
def guardText (authority : Option Str) (path : Str) : Str :=
  match authority, path with
  | none, '/' :: '/' :: _ => c!"/."
  | _, _ => []

/-- `Url::to_string`/`as_str`. -/
def Url.print (u : Url) : Str :=
  u.scheme ++ ':' :: (authText u.authority ++ (guardText u.authority u.path ++ (u.path ++
    (optText '?' u.query ++ optText '#' u.fragment))))

/-- The scheme is special in the URL standard (`SchemeType::is_special`, except `file`). -/
def isSpecial (scheme : Str) : Bool := (mget scheme specialPorts).isSome

/-- Split at the first `c`, the second part being absent if `c` does not occur. -/
def splitOpt (c : Char) (s : Str) : Str × Option Str :=
  match splitOnce c s with
  | some (a, b) => (a, some b)
  | none => (s, none)

/-- Characters dropped at both ends of a text (crate `url`, parser.rs,
`Input::new_trim_c0_control_and_space`). -/
def isUrlSpace (c : Char) : Bool := c.toNat ≤ 0x20

/-- Characters dropped everywhere (crate `url`, parser.rs, `Input::next`). -/
def isUrlIgnored (c : Char) : Bool := c = '\t' || c = '\n' || c = '\r'

/-- The text that is read. -/
def urlInput (s : Str) : Str :=
  ((s.dropWhile isUrlSpace).reverse.dropWhile isUrlSpace).reverse.filter (fun c => !isUrlIgnored c)

/-- Split at the first slash. -/
def splitSlash (special : Bool) : Str → Str × Option Str
  | [] => ([], none)
  | c :: cs =>
    if isSlash special c then ([], some cs)
    else ((c :: (splitSlash special cs).1), (splitSlash special cs).2)

/-- Authority and path of what follows `scheme:` (query and fragment removed): `parse_with_scheme`,
`parse_non_special`, `after_double_slash`, `parse_path_start`, `parse_cannot_be_a_base_path` (crate `url`,
parser.rs). -/
def readHier (scheme s : Str) : Option (Option Str × Str) :=
  if isSpecial scheme then
    let (a, p) := splitSlash true (s.dropWhile (isSlash true))
    match normAuthority scheme a with
    | some a => some (some a, hierPath true (p.getD []))
    | none => none
  else match s with
    | '/' :: '/' :: r =>
      let (a, p) := splitSlash false r
      match normAuthority scheme a with
      | some a => some (some a, match p with | some p => hierPath false p | none => [])
      | none => none
    | '/' :: r => some (none, hierPath false r)
    | s => some (none, escape opaqueKeep s)

/-- `Url::parse` (crate `url`). -/
def Url.parse (s : Str) : Option Url :=
  match splitOnce ':' (urlInput s) with
  | none => none
  | some (sch, rest) =>
    match sch with
    | [] => none
    | c :: cs =>
      if isAlpha c = true ∧ cs.all isSchemeChar = true then
        let scheme := sch.map asciiLower
        let (hq, fragment) := splitOpt '#' rest
        let (h, query) := splitOpt '?' hq
        match readHier scheme h with
        | some (authority, path) =>
          some ⟨scheme, authority, path, query.map (escape (queryKeep (isSpecial scheme))),
            fragment.map (escape fragmentKeep)⟩
        | none => none
      else none

/-- `Url::authority`: the empty text if there is none. -/
def Url.authorityStr (u : Url) : Str :=
  match u.authority with
  | some a => a
  | none => []

/-- `Url::set_query(Some(q))` for text that needs no encoding, which is the case for the
only caller (src/core/authorization_request/mod.rs:178, form-encoded text). -/
def Url.setQuery (q : Str) (u : Url) : Url := { u with query := some q }

/-- `url.path_segments_mut()?.push(seg)` (src/verifier/request_builder.rs:98-104,145-150).
Fails iff the URL cannot be a base; adds a separator unless the path is exactly `/`.
`seg` is a printed UUID, so it needs no encoding. -/
def Url.pathPush (seg : Str) (u : Url) : Option Url :=
  match u.authority, u.path with
  | none, [] => none
  | none, c :: cs =>
    if c = '/' then
      some { u with path := if u.path.length = 1 then u.path ++ seg else c :: cs ++ '/' :: seg }
    else none
  | some _, p => some { u with path := if p.length = 1 then p ++ seg else p ++ '/' :: seg }

/-- Deserialisation of a `Url` from JSON (`serde` feature of crate `url`): a string that
parses. -/
def Url.ofJson : Json → Res Url
  | .str s => orErr .parse (Url.parse s)
  | _ => .error .parse

/-- A URL that the crate can hold: every component is in the form in which it is serialised. -/
structure Url.WF (u : Url) : Prop where
  scheme_ok : ∃ c cs, u.scheme = c :: cs ∧ isLower c = true ∧
    ∀ x ∈ cs, isSchemeChar x = true ∧ asciiLower x = x
  auth_ok : ∀ a, u.authority = some a → normAuthority u.scheme a = some a
  path_ok : ∀ r, u.path = '/' :: r → hierPath (isSpecial u.scheme) r = '/' :: r
  path_auth : u.authority ≠ none → u.path = [] ∨ ∃ p, u.path = '/' :: p
  path_opaque : u.authority = none → (∀ p, u.path ≠ '/' :: p) →
    ∀ c ∈ u.path, opaqueKeep c = true ∧ c ≠ '?' ∧ c ≠ '#'
  path_end : u.authority = none → (∀ p, u.path ≠ '/' :: p) → u.query = none → u.fragment = none →
    u.path.getLast? ≠ some ' '
  query_ok : ∀ q, u.query = some q → ∀ c ∈ q, queryKeep (isSpecial u.scheme) c = true
  fragment_ok : ∀ f, u.fragment = some f → ∀ c ∈ f, fragmentKeep c = true
  special : isSpecial u.scheme = true → u.authority ≠ none ∧ u.path ≠ []

/-! ## UUIDs -/

/-- `uuid::Uuid`: 128 bits. -/
structure Uuid where
  bits : Fin (2 ^ 128)
deriving DecidableEq, Repr

/-- `Uuid::to_string` (hyphenated, lower case), used as the last path segment of
`response_uri` and `request_uri` (src/verifier/request_builder.rs:101,148). -/
def Uuid.print (u : Uuid) : Str :=
  let d := hexDigits 32 u.bits.val
  d.take 8 ++ '-' :: ((d.drop 8).take 4 ++ '-' :: ((d.drop 12).take 4 ++ '-' ::
    ((d.drop 16).take 4 ++ '-' :: d.drop 20)))

/-- Value of hexadecimal digits (either case), most significant first. -/
def hexNat : Nat → Str → Option Nat
  | acc, [] => some acc
  | acc, c :: cs => match hexVal c with
    | some d => hexNat (acc * 16 + d) cs
    | none => none

/-- The digits of a hyphenated UUID text (crate `uuid`, `parse_hyphenated`, without the check that
they are digits). -/
def Uuid.hyphenated (s : Str) : Option Str :=
  match splitOn '-' s with
  | [a, b, c, d, e] =>
    if a.length = 8 ∧ b.length = 4 ∧ c.length = 4 ∧ d.length = 4 ∧ e.length = 12
    then some (a ++ b ++ c ++ d ++ e) else none
  | _ => none

/-- The digits of a UUID text (crate `uuid`, `try_parse`): simple, hyphenated, braced or URN form,
told apart by length. -/
def Uuid.digits (s : Str) : Option Str :=
  if s.length = 32 then some s
  else if s.length = 36 then Uuid.hyphenated s
  else if s.length = 38 then match s with
    | '{' :: r => if r.getLast? = some '}' then Uuid.hyphenated r.dropLast else none
    | _ => none
  else if s.length = 45 then match stripPrefix c!"urn:uuid:" s with
    | some r => Uuid.hyphenated r
    | none => none
  else none

/-- `Uuid::parse_str`, used by the servers around the library to turn the last path segment back into
a session id (examples/verifier-conformance-adapter/server/handlers.rs:97,131,234,
examples/cli-verifier/main.rs:198,225). -/
def Uuid.parse (s : Str) : Option Uuid :=
  match Uuid.digits s with
  | none => none
  | some ds => match hexNat 0 ds with
    | none => none
    | some n => if h : n < 2 ^ 128 then some ⟨⟨n, h⟩⟩ else none

end Oid4vp
