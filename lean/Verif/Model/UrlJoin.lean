import Verif.Model.Url
/-!
# Resolving references against a URL (crate `url`, `Url::join`)

Used by the example verifier for its own addresses (examples/verifier-conformance-adapter/server/state.rs:93,95)
and by the bundled HTTP client for the `location` of a redirect (src/core/util/mod.rs:18-68, crate `reqwest`).
As in Model/UrlText, the states of the URL standard of the WHATWG are modelled, without those of the
scheme `file`. Releases of the crate differ from the standard in corners that are not modelled: a backslash at the
beginning of a reference against a scheme that is not special, and more than two slashes there.
-/

set_option autoImplicit false

namespace Oid4vp

/-- The opposite of `Url::cannot_be_a_base` (crate `url`): the path is not opaque. -/
def Url.canBeBase (u : Url) : Bool :=
  match u.authority, u.path with
  | some _, _ => true
  | none, '/' :: _ => true
  | none, _ => false

/-- The segments of a path without the last one (crate `url`, parser.rs, `pop_path`). -/
def dirSegments : Str → List Str
  | '/' :: r => (splitOn '/' r).dropLast
  | _ => []

/-- Relative, relative slash and path states (crate `url`, parser.rs, `parse_relative`, `fragment_only`) for what
precedes query and fragment: authority and path. -/
def relativeHier (base : Url) (s : Str) : Option (Option Str × Str) :=
  let sp := isSpecial base.scheme
  match s with
  | [] => some (base.authority, base.path)
  | c :: cs =>
    if isSlash sp c then
      match cs with
      | d :: r =>
        if isSlash sp d then readHier base.scheme (c :: d :: r)
        else some (base.authority, hierPath sp (d :: r))
      | [] => some (base.authority, hierPath sp [])
    else some (base.authority,
      '/' :: joinWith '/' (walk (dirSegments base.path) ((segments sp (c :: cs)).map (escape pathKeep))))

/-- A reference without scheme (crate `url`, parser.rs, `parse_relative`, `fragment_only`, and the no-scheme state in
`parse_url`): the query of the base is kept if the reference has neither path nor query. Against an opaque path
only a fragment can be resolved. -/
def Url.relative (base : Url) (s : Str) : Option Url :=
  let (hq, fragment) := splitOpt '#' s
  let (h, query) := splitOpt '?' hq
  if base.canBeBase || (h = [] && query.isNone && fragment.isSome) then
    match relativeHier base h with
    | some (authority, path) =>
      some ⟨base.scheme, authority, path,
        if h = [] ∧ query = none then base.query else query.map (escape (queryKeep (isSpecial base.scheme))),
        fragment.map (escape fragmentKeep)⟩
    | none => none
  else none

/-- Scheme and rest of a text that begins with a scheme (crate `url`, parser.rs, `parse_scheme`). -/
def splitScheme (s : Str) : Option (Str × Str) :=
  match splitOnce ':' s with
  | some (c :: cs, rest) =>
    if isAlpha c = true ∧ cs.all isSchemeChar = true then some ((c :: cs).map asciiLower, rest) else none
  | _ => none

/-- The text begins with two slashes of a special scheme. -/
def twoSlashes : Str → Bool
  | c :: d :: _ => isSlash true c && isSlash true d
  | _ => false

/-- `Url::join` (crate `url`, `parse_url` with a base): a text with a scheme is a URL of its own, unless the scheme is
special, that of the base, and not followed by two slashes. -/
def Url.join (base : Url) (s : Str) : Option Url :=
  match splitScheme (urlInput s) with
  | some (scheme, rest) =>
    if isSpecial scheme && scheme = base.scheme && !twoSlashes rest then base.relative rest else Url.parse s
  | none => base.relative (urlInput s)

end Oid4vp
