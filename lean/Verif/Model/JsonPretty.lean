import Verif.Model.JsonText
/-!
# `serde_json::to_string_pretty`

Used at examples/verifier-conformance-adapter/server/state.rs:228 and
examples/cli-verifier/main.rs:663.
-/

set_option autoImplicit false

namespace Oid4vp

/-- A new line at the given depth (`PrettyFormatter` of `serde_json`, two spaces a level). -/
def newLine (n : Nat) : Str := '\n' :: List.replicate (2 * n) ' '

mutual
/-- `serde_json::to_string_pretty` (examples/cli-verifier/main.rs:663): the text of a value at the
given depth. -/
def jPretty (n : Nat) : Json → Str
  | .arr [] => c!"[]"
  | .arr (j :: l) => '[' :: (newLine (n + 1) ++ (jPretty (n + 1) j ++ jPrettyL n l))
  | .obj [] => c!"{}"
  | .obj ((k, j) :: m) =>
    '{' :: (newLine (n + 1) ++ (jStr k ++ (c!": " ++ (jPretty (n + 1) j ++ jPrettyM n m))))
  | j => jPrint j
/-- The elements of an array after the first one, and the closing bracket. -/
def jPrettyL (n : Nat) : List Json → Str
  | [] => newLine n ++ [']']
  | j :: l => ',' :: (newLine (n + 1) ++ (jPretty (n + 1) j ++ jPrettyL n l))
/-- The members of an object after the first one, and the closing bracket. -/
def jPrettyM (n : Nat) : List (Str × Json) → Str
  | [] => newLine n ++ ['}']
  | (k, j) :: m =>
    ',' :: (newLine (n + 1) ++ (jStr k ++ (c!": " ++ (jPretty (n + 1) j ++ jPrettyM n m))))
end

end Oid4vp
