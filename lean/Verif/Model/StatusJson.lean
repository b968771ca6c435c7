import Verif.Model.Session
import Verif.Model.WalletApp
/-!
# JSON of the status of a session (openid4vp-frontend/src/lib.rs)

The derived `Serialize` and `Deserialize` of externally tagged enums.
-/

set_option autoImplicit false

namespace Oid4vp

/-- Derived `Serialize` of `Outcome` (openid4vp-frontend/src/lib.rs:20-28). -/
def Outcome.toJson : Outcome → Json
  | .error cause => .obj [(c!"Error", .obj [(c!"cause", .str cause)])]
  | .failure reason => .obj [(c!"Failure", .obj [(c!"reason", .str reason)])]
  | .success info => .obj [(c!"Success", .obj [(c!"info", info)])]

/-- Derived `Serialize` of `Status` (openid4vp-frontend/src/lib.rs:7-17). -/
def Status.toJson : Status → Json
  | .sentRequestByReference => .str c!"SentRequestByReference"
  | .sentRequest => .str c!"SentRequest"
  | .receivedResponse => .str c!"ReceivedResponse"
  | .complete o => .obj [(c!"Complete", o.toJson)]

/-- `from_value` for `Outcome` (openid4vp-frontend/src/lib.rs:20-28): an object with one member, whose
value is an object. -/
def Outcome.ofJson : Json → Res Outcome
  | .obj [(k, .obj m)] =>
    if k = c!"Error" then (fieldReq c!"cause" strOfJson m).map .error
    else if k = c!"Failure" then (fieldReq c!"reason" strOfJson m).map .failure
    else if k = c!"Success" then (fieldReq c!"info" .ok m).map .success
    else .error .parse
  | _ => .error .parse

/-- The variants without data (openid4vp-frontend/src/lib.rs:9-14). -/
def Status.ofName (s : Str) : Res Status :=
  if s = c!"SentRequestByReference" then .ok .sentRequestByReference
  else if s = c!"SentRequest" then .ok .sentRequest
  else if s = c!"ReceivedResponse" then .ok .receivedResponse
  else .error .parse

/-- `from_value` for `Status` (openid4vp-frontend/src/lib.rs:7-17): a name, or an object with one
member; a variant without data may also be written as a member `null`. -/
def Status.ofJson : Json → Res Status
  | .str s => Status.ofName s
  | .obj [(k, j)] =>
    if k = c!"Complete" then (Outcome.ofJson j).map .complete
    else match j with
      | .null => Status.ofName k
      | _ => .error .parse
  | _ => .error .parse

/-- `Outcome` in a text (openid4vp-frontend/src/lib.rs:20-28): its fields may also be written as an
array, and must not be given twice. -/
def Outcome.ofRaw : Json → Res Outcome
  | .obj [(k, j)] =>
    if k = c!"Error" then match WalletApp.structText [c!"cause"] j with
      | .error e => .error e
      | .ok m => (fieldReq c!"cause" strOfJson m).map .error
    else if k = c!"Failure" then match WalletApp.structText [c!"reason"] j with
      | .error e => .error e
      | .ok m => (fieldReq c!"reason" strOfJson m).map .failure
    else if k = c!"Success" then match WalletApp.structText [c!"info"] j with
      | .error e => .error e
      | .ok m => (fieldReq c!"info" (fun v => .ok v.norm) m).map .success
    else .error .parse
  | _ => .error .parse

/-- `Status` in a text (openid4vp-frontend/src/lib.rs:7-17). -/
def Status.ofRaw : Json → Res Status
  | .str s => Status.ofName s
  | .obj [(k, j)] =>
    if k = c!"Complete" then (Outcome.ofRaw j).map .complete
    else match j with
      | .null => Status.ofName k
      | _ => .error .parse
  | _ => .error .parse

/-- `from_str` for `Status` (openid4vp-frontend/src/lib.rs:7-17). Simplified as `loadStore` in unknown
members. -/
def Status.ofText (s : Str) : Res Status :=
  match jParseRaw s with
  | .error e => .error e
  | .ok j => Status.ofRaw j

end Oid4vp
