import Verif.Model.Params
/-!
# Random nonces

`Nonce::random` (src/core/authorization_request/parameters.rs:266-273) samples a text with the
distribution `Alphanumeric` of crate `rand` 0.8.5. The generator is the sequence of the 32-bit words that
it yields. `none`: the given words were used up; the code would ask the generator for more.
-/

set_option autoImplicit false

namespace Oid4vp

/-- `GEN_ASCII_STR_CHARSET` of crate `rand`, used by
src/core/authorization_request/parameters.rs:268-271. -/
def alphanumericChars : Str := c!"ABCDEFGHIJKLMNOPQRSTUVWXYZabcdefghijklmnopqrstuvwxyz0123456789"

/-- `Distribution<u8>::sample` of `Alphanumeric` (crate `rand`, used by
src/core/authorization_request/parameters.rs:268-271): the upper six bits of a word are an index; words
with too large an index are skipped. -/
def sampleAlphanumeric : List UInt32 → Option (Char × List UInt32)
  | [] => none
  | w :: ws =>
    let v := (w >>> 26).toNat
    if v < 62 then some (alphanumericChars.getD v 'A', ws) else sampleAlphanumeric ws

/-- `DistString::append_string`: `length` samples, one after the other (crate `rand`, used by
src/core/authorization_request/parameters.rs:268-271). -/
def sampleString : Nat → List UInt32 → Option (Str × List UInt32)
  | 0, ws => some ([], ws)
  | n + 1, ws =>
    match sampleAlphanumeric ws with
    | none => none
    | some (c, ws) => match sampleString n ws with
      | none => none
      | some (s, ws) => some (c :: s, ws)

/-- `Nonce::random` (src/core/authorization_request/parameters.rs:266-273), with what remains of the words
of the generator. -/
def Nonce.random (length : Nat) (ws : List UInt32) : Option (Nonce × List UInt32) :=
  match sampleString length ws with
  | none => none
  | some (s, ws) => some (⟨s⟩, ws)

end Oid4vp
