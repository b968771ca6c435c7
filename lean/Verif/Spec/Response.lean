import Verif.Lemmas.JsonText
import Verif.Model.Response
/-!
# Specification vocabulary for responses and their submission
-/

set_option autoImplicit false

namespace Oid4vp

/-- The response has the kind the response mode asks for. -/
def KindFor (a : RequestObject) (r : AuthorizationResponse) : Prop :=
  (a.responseMode = .directPost ∧ ∃ u, r = .unencoded u) ∨
    (a.responseMode = .directPostJwt ∧ ∃ s, r = .jwt s)

/-- The mode is one of the Digital Credentials API modes. -/
def DcApiMode (a : RequestObject) : Prop :=
  a.responseMode = .dcApi ∨ a.responseMode = .dcApiJwt

/-- The code points with the Unicode property White_Space. -/
def whiteSpace : List Nat :=
  [0x9, 0xA, 0xB, 0xC, 0xD, 0x20, 0x85, 0xA0, 0x1680, 0x2000, 0x2001, 0x2002, 0x2003, 0x2004,
    0x2005, 0x2006, 0x2007, 0x2008, 0x2009, 0x200A, 0x2028, 0x2029, 0x202F, 0x205F, 0x3000]

/-- The text has nothing but white space. -/
def Blank (s : Str) : Prop := ∀ c ∈ s, c.toNat ∈ whiteSpace

/-- The answer's status is 2xx. -/
def Success (r : HttpResponse) : Prop := r.status / 100 = 2

/-- The answer's body is the JSON document `j` in UTF-8. -/
def BodyJson (r : HttpResponse) (j : Json) : Prop :=
  ∃ text, r.body = utf8 text ∧ jParse text = .ok j

/-- The JSON value is an object whose `redirect_uri` is the string `s`. -/
def RedirectsTo (j : Json) (s : Str) : Prop :=
  ∃ m, j = .obj m ∧ mget c!"redirect_uri" m = some (.str s)

/-- The values a form body gives for a key, in order. -/
def formValues (b : Bytes) (k : Str) : List Str :=
  (formParseB b).filterMap (fun p => if p.1 = k then some p.2 else none)

/-- The JSON value of one presentation in a VP token: a string or an object. -/
inductive ItemOf : Json → VpTokenItem → Prop where
  | string (s : Str) : ItemOf (.str s) (.string s)
  | jsonObject (m m' : List (Str × Json)) : Json.norm (.obj m) = .obj m' →
      ItemOf (.obj m) (.jsonObject m')

/-- The JSON text of a VP token: an object whose members are arrays of presentations; a
repeated member stands for its last occurrence. -/
def TokenText (s : Str) (t : VpToken) : Prop :=
  ∃ m, jParseRaw s = .ok (.obj m) ∧ Sorted t.map ∧
    (∀ p ∈ m, ∃ l, p.2 = .arr l ∧ ∀ j ∈ l, ∃ i, ItemOf j i) ∧
    (∀ k is, mget k t.map = some is ↔
      ∃ before after l, m = before ++ (k, .arr l) :: after ∧ (∀ p ∈ after, p.1 ≠ k) ∧
        List.Forall₂ ItemOf l is)

/-- The JSON value of a VP token, in the same way. -/
def TokenDoc (j : Json) (t : VpToken) : Prop :=
  ∃ m, j = .obj m ∧ Sorted t.map ∧
    (∀ p ∈ m, ∃ l, p.2 = .arr l ∧ ∀ j ∈ l, ∃ i, ItemOf j i) ∧
    (∀ k is, mget k t.map = some is ↔
      ∃ before after l, m = before ++ (k, .arr l) :: after ∧ (∀ p ∈ after, p.1 ≠ k) ∧
        List.Forall₂ ItemOf l is)

/-- The `state` member: absent, `null` or a string. -/
inductive StateDoc : Option Json → Option State → Prop where
  | absent : StateDoc none none
  | null : StateDoc (some .null) none
  | string (s : Str) : StateDoc (some (.str s)) (some ⟨s⟩)

/-- The JSON document of an unencoded response: an object with these members, or the two values. -/
inductive PlainDoc : Json → UnencodedResponse → Prop where
  | obj (m : List (Str × Json)) (tok : Json) (u : UnencodedResponse) :
      mget c!"vp_token" m = some tok → TokenDoc tok u.vpToken →
      StateDoc (mget c!"state" m) u.state → PlainDoc (.obj m) u
  | arr (tok st : Json) (u : UnencodedResponse) : TokenDoc tok u.vpToken →
      StateDoc (some st) u.state → PlainDoc (.arr [tok, st]) u

/-- The JSON document of a JWT response: an object with this member, or the one value. -/
inductive JwtDoc : Json → Str → Prop where
  | obj (m : List (Str × Json)) (s : Str) : mget c!"response" m = some (.str s) → JwtDoc (.obj m) s
  | arr (s : Str) : JwtDoc (.arr [.str s]) s

/-- The token is one the library can hold: keys distinct (in the model: sorted), the JSON
objects in it proper `serde_json` values. -/
def VpToken.Proper (t : VpToken) : Prop :=
  Sorted t.map ∧ ∀ p ∈ t.map, ∀ m, VpTokenItem.jsonObject m ∈ p.2 → (Json.obj m).WF FltLit

/-- No presentation nests deeper than `n` brackets. -/
def VpToken.NestedAtMost (n : Nat) (t : VpToken) : Prop :=
  ∀ p ∈ t.map, ∀ m, VpTokenItem.jsonObject m ∈ p.2 → (Json.obj m).depth ≤ n

/-- An order of enumeration: it visits every entry once. -/
def MapOrder.Fair (ord : MapOrder) : Prop := ∀ l, (ord l).Perm l

end Oid4vp
