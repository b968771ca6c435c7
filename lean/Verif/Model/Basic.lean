import Lean
/-!
# Basic vocabulary of the model

Text, bytes, errors, sorted association lists and the handful of `std` string
functions the library uses.
-/


set_option autoImplicit false

namespace Oid4vp

/-- Rust `String`/`&str`: the sequence of its Unicode scalar values. -/
abbrev Str := List Char

/-- Rust `Vec<u8>`/`&[u8]`. -/
abbrev Bytes := List UInt8

open Lean in
/-- `c!"abc"` is the literal `['a', 'b', 'c'] : Str` (keeps kernel evaluation of
concrete cases cheap). -/
macro:max "c!" s:str : term => do
  let cs := s.getString.toList
  let elems ← cs.mapM fun c => pure (Syntax.mkCharLit c)
  `(([$(elems.toArray),*] : List Char))

/-- The error values of the model. The library reports `anyhow`/typed errors with text;
the model keeps one constructor per kind of failure that a property distinguishes. -/
inductive Err where
  /-- a required parameter or field is absent -/
  | missing
  /-- a value is present but is not of the expected shape -/
  | parse
  /-- two things that exclude each other are both present, or do not belong together -/
  | conflict
  /-- something is not supported by the library or by the wallet -/
  | unsupported
  /-- a comparison that had to succeed did not -/
  | mismatch
  /-- invalid base64, UTF-8, JWS, DER or CBOR -/
  | decode
  /-- JSON nesting is deeper than the parser allows -/
  | recursion
  /-- transport failure or unacceptable HTTP status -/
  | http
  /-- the request URL is not addressed to this wallet -/
  | wrongEndpoint
  /-- a signature did not verify, or a key could not be obtained -/
  | signature
  /-- the client or its keys are not trusted -/
  | untrusted
  /-- no session with that id -/
  | notFound
  /-- the session store's lock is taken -/
  | locked
  /-- a caller-supplied callback failed -/
  | callback
  /-- a value cannot be serialised -/
  | serialize
  /-- the Rust code would panic here -/
  | panic
deriving DecidableEq, Repr, Inhabited

/-- Rust `Result<T, _>`. -/
abbrev Res (α : Type) := Except Err α

/-- Decidable equality of results (used by the concrete cases beside the theorems). -/
instance {ε α : Type} [DecidableEq ε] [DecidableEq α] : DecidableEq (Except ε α)
  | .ok a, .ok b => if h : a = b then isTrue (by rw [h]) else isFalse (by intro e; cases e; exact h rfl)
  | .error a, .error b => if h : a = b then isTrue (by rw [h]) else isFalse (by intro e; cases e; exact h rfl)
  | .ok _, .error _ => isFalse (by intro e; cases e)
  | .error _, .ok _ => isFalse (by intro e; cases e)

/-- `Option::context(..)?`: absence becomes an error. -/
def orErr {α : Type} (e : Err) : Option α → Res α
  | some a => .ok a
  | none => .error e

/-- Rust's `Ord for str`: bytewise comparison of UTF-8, which is the lexicographic order
of scalar values. -/
def strLt : Str → Str → Bool
  | _, [] => false
  | [], _ :: _ => true
  | a :: as, b :: bs =>
    if a.toNat < b.toNat then true else if a = b then strLt as bs else false

/-- Look up a key in an association list (first match). -/
def mget {α : Type} (k : Str) : List (Str × α) → Option α
  | [] => none
  | (k', v) :: m => if k = k' then some v else mget k m

/-- `BTreeMap::insert` on a list sorted by key. -/
def mset {α : Type} (k : Str) (v : α) : List (Str × α) → List (Str × α)
  | [] => [(k, v)]
  | (k', v') :: m =>
    if k = k' then (k, v) :: m
    else if strLt k k' then (k, v) :: (k', v') :: m
    else (k', v') :: mset k v m

/-- `BTreeMap::remove` on a list sorted by key. -/
def mdel {α : Type} (k : Str) : List (Str × α) → List (Str × α)
  | [] => []
  | (k', v') :: m => if k = k' then m else (k', v') :: mdel k m

/-- Strictly increasing keys: the representation invariant of `serde_json::Map`. -/
def Sorted {α : Type} : List (Str × α) → Prop
  | [] => True
  | (k, _) :: m => (∀ p ∈ m, strLt k p.1 = true) ∧ Sorted m

/-- Collect key/value pairs into a map, later ones overwriting earlier ones
(`FromIterator`/`Deserialize` for `serde_json::Map` and `HashMap`). -/
def mofList {α : Type} (l : List (Str × α)) : List (Str × α) :=
  l.foldl (fun m p => mset p.1 p.2 m) []

/-- `str::split_once(c)`: split at the first occurrence. -/
def splitOnce (c : Char) : Str → Option (Str × Str)
  | [] => none
  | x :: xs =>
    if x = c then some ([], xs)
    else match splitOnce c xs with
      | some (a, b) => some (x :: a, b)
      | none => none

/-- `str::rsplit_once(c)`: split at the last occurrence. -/
def rsplitOnce (c : Char) : Str → Option (Str × Str)
  | [] => none
  | x :: xs =>
    match rsplitOnce c xs with
    | some (a, b) => some (x :: a, b)
    | none => if x = c then some ([], xs) else none

/-- `str::strip_prefix(p)`. -/
def stripPrefix : Str → Str → Option Str
  | [], s => some s
  | _ :: _, [] => none
  | p :: ps, x :: xs => if p = x then stripPrefix ps xs else none

/-- `str::starts_with(p)`. -/
def startsWith (p s : Str) : Bool := (stripPrefix p s).isSome

/-- `str::split(c)` collected: always at least one piece. -/
def splitOn (c : Char) : Str → List Str
  | [] => [[]]
  | x :: xs =>
    if x = c then [] :: splitOn c xs
    else match splitOn c xs with
      | [] => [[x]]
      | p :: ps => (x :: p) :: ps

/-- `[..].join(sep)` for a one-character separator. -/
def joinWith (c : Char) : List Str → Str
  | [] => []
  | [p] => p
  | p :: ps => p ++ c :: joinWith c ps

/-- `str::contains(needle)`. -/
def contains (needle : Str) : Str → Bool
  | [] => startsWith needle []
  | x :: xs => startsWith needle (x :: xs) || contains needle xs

/-- `iter.map(f).collect::<Result<Vec<_>, _>>()`: stops at the first error. -/
def mapR {α β : Type} (f : α → Res β) : List α → Res (List β)
  | [] => .ok []
  | a :: as => match f a with
    | .error e => .error e
    | .ok b => match mapR f as with
      | .error e => .error e
      | .ok bs => .ok (b :: bs)

/-- `str::trim_end_matches(c)`. -/
def trimEndChar (c : Char) (s : Str) : Str :=
  (s.reverse.dropWhile (· == c)).reverse

end Oid4vp
