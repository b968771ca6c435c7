import Verif.Spec.Url
/-!
# References against a base (the URL standard of the WHATWG; RFC 3986, section 5)

Nothing here refers to how references are resolved by the code.
-/

set_option autoImplicit false

namespace Oid4vp.Spec

/-- The path of the URL is not opaque: there is an authority, or the path begins with a slash. -/
def Hierarchical (u : Url) : Prop := u.authority ≠ none ∨ u.path.head? = some '/'

/-- The text after the first slash of the path, up to its last slash. -/
def DirText (path dir : Str) : Prop :=
  (path = [] ∧ dir = []) ∨
    ∃ last, path = c!"/" ++ dir ++ last ∧ '/' ∉ last ∧ (dir = [] ∨ dir.getLast? = some '/')

/-- Authority and path of a reference without scheme, query and fragment: those of the base; another authority; a path
from the root; a path from the directory of the base, dots removed after both are put together. -/
inductive RefHier (base : Url) (special : Bool) : Str → Option Str → Str → Prop
  | same : RefHier base special [] base.authority base.path
  | authority {c d : Char} {rest path : Str} {auth : Option Str} : Separator special c → Separator special d →
      HierText base.scheme (c :: d :: rest) auth path → RefHier base special (c :: d :: rest) auth path
  | rooted {c : Char} {rest path : Str} : Separator special c →
      (∀ d, rest.head? = some d → ¬ Separator special d) → PathText special rest path →
      RefHier base special (c :: rest) base.authority path
  | beside {ref dir path : Str} : ref ≠ [] → (∀ c, ref.head? = some c → ¬ Separator special c) →
      DirText base.path dir → PathText special (dir ++ ref) path → RefHier base special ref base.authority path

/-- The reference without scheme leads from the base to the URL. -/
def RefText (base : Url) (s : Str) (u : Url) : Prop :=
  ∃ (hier : Str) (query fragment : Option Str) (special : Bool),
    s = hier ++ marked c!"?" query ++ marked c!"#" fragment ∧
    '?' ∉ hier ∧ '#' ∉ hier ++ marked c!"?" query ∧
    (special = true ↔ Special base.scheme) ∧
    (Hierarchical base ∨ (hier = [] ∧ query = none ∧ fragment ≠ none)) ∧
    u.scheme = base.scheme ∧ RefHier base special hier u.authority u.path ∧
    (if hier = [] ∧ query = none then u.query = base.query else OptEscaped (QueryKept special) query u.query) ∧
    OptEscaped FragmentKept fragment u.fragment

/-- The text leads from the base to the URL. -/
inductive Resolves (base : Url) (s : Str) (u : Url) : Prop
  /-- A URL of its own. -/
  | own {t written name rest : Str} : Cleaned s t → t = written ++ c!":" ++ rest → SchemeText written name →
      ¬ (Special name ∧ name = base.scheme ∧
        ∀ c d r, rest = c :: d :: r → ¬ (Separator true c ∧ Separator true d)) →
      UrlText s u → Resolves base s u
  /-- With the special scheme of the base, but without two slashes after it. -/
  | sameScheme {t written rest : Str} : Cleaned s t → t = written ++ c!":" ++ rest →
      SchemeText written base.scheme → Special base.scheme →
      (∀ c d r, rest = c :: d :: r → ¬ (Separator true c ∧ Separator true d)) →
      RefText base rest u → Resolves base s u
  /-- Without a scheme. -/
  | noScheme {t : Str} : Cleaned s t →
      (∀ written name rest, SchemeText written name → t ≠ written ++ c!":" ++ rest) →
      RefText base t u → Resolves base s u

end Oid4vp.Spec
