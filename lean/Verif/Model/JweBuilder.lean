import Verif.Model.Jwe

/-! # The calls of `JweBuilder` (src/core/jwe.rs)

`JweBuilder::build` and `build_encrypted_response` are in `Model/Jwe`. -/

set_option autoImplicit false

namespace Oid4vp

namespace JweBuilder

/-- `JweBuilder::new` (src/core/jwe.rs:44-46). -/
def new : JweBuilder := {}

/-- `payload` (src/core/jwe.rs:52-55). -/
def setPayload (p : Json) (b : JweBuilder) : JweBuilder := { b with payload := some p }

/-- `recipient_key` (src/core/jwe.rs:58-61). A `josekit` JWK is the parsed JSON object. -/
def setRecipientKey (k : List (Str × Json)) (b : JweBuilder) : JweBuilder :=
  { b with recipientKey := some k }

/-- `recipient_key_json` (src/core/jwe.rs:64-69): the value is printed and read as a JWK, which must be an
object. -/
def setRecipientKeyJson (jk : Josekit) (j : Json) (b : JweBuilder) : Res JweBuilder :=
  match jParse (jPrint j) with
  | .error e => .error e
  | .ok (.obj m) => if jk.jwkOk m then .ok { b with recipientKey := some m } else .error .parse
  | .ok _ => .error .parse

/-- `alg` (src/core/jwe.rs:74-77). -/
def setAlg (a : Str) (b : JweBuilder) : JweBuilder := { b with alg := some a }

/-- `enc` (src/core/jwe.rs:82-85). -/
def setEnc (e : Str) (b : JweBuilder) : JweBuilder := { b with enc := some e }

/-- `kid` (src/core/jwe.rs:88-91). -/
def setKid (k : Str) (b : JweBuilder) : JweBuilder := { b with kid := some k }

end JweBuilder

/-- One call of a method of `JweBuilder` (src/core/jwe.rs:48-91). -/
inductive JweCall where
  | payload (p : Json)
  | key (k : List (Str × Json))
  | keyJson (j : Json)
  | alg (a : Str)
  | enc (e : Str)
  | kid (k : Str)

/-- What a call does to the builder (src/core/jwe.rs:48-91). -/
def JweCall.run (jk : Josekit) (b : JweBuilder) : JweCall → Res JweBuilder
  | .payload p => .ok (b.setPayload p)
  | .key k => .ok (b.setRecipientKey k)
  | .keyJson j => b.setRecipientKeyJson jk j
  | .alg a => .ok (b.setAlg a)
  | .enc e => .ok (b.setEnc e)
  | .kid k => .ok (b.setKid k)

/-- A chain of calls; the first error ends it (src/core/jwe.rs:305-313, `?`). -/
def JweCall.runAll (jk : Josekit) : List JweCall → JweBuilder → Res JweBuilder
  | [], b => .ok b
  | c :: cs, b => match c.run jk b with
    | .error e => .error e
    | .ok b => JweCall.runAll jk cs b

end Oid4vp
