import Verif.Props.Codec
import Verif.Lemmas.JsonRead
import Verif.Lemmas.Lossy
/-!
# C73: which texts are read as JSON, and as which values
-/

set_option autoImplicit false

namespace Oid4vp
open Spec

/-- **C73** Exactly the JSON texts of at most 127 nested brackets are read, each as its value. -/
theorem C73_json_text (s : Str) (j : Json) : jParse s = .ok j ↔ JsonText s j := jParse_iff

/-- **C73** Exactly the UTF-8 forms of such texts are read from bytes. -/
theorem C73_json_bytes (b : Bytes) (j : Json) :
    jParseBytes b = .ok j ↔ ∃ s : Str, b = s.flatMap String.utf8EncodeChar ∧ JsonText s j := by
  have hu : ∀ s : Str, s.flatMap String.utf8EncodeChar = utf8 s := by
    intro s; rw [utf8, funext utf8Char_encode]
  simp only [hu, ← jParse_iff]
  unfold jParseBytes
  constructor
  · intro h
    split at h
    · rename_i s hs
      exact ⟨s, utf8Dec_eq_some.1 hs, h⟩
    · cases h
  · rintro ⟨s, rfl, h⟩
    simp only [utf8Dec_utf8, h]

/-- **C73** A text has at most one value. -/
theorem C73_json_unambiguous {s : Str} {j j' : Json} (h : JsonText s j) (h' : JsonText s j') : j = j' := by
  have := (jParse_iff.2 h).symm.trans (jParse_iff.2 h')
  cases this; rfl

/-- **C73** What is written for a value is a JSON text of it. -/
theorem C73_json_written (j : Json) (h : j.WF FloatText) (hd : j.depth < 128) : JsonText (jPrint j) j :=
  jParse_iff.1 (C51_json_roundtrip j h hd).1

/-! ## Cases -/

/-- White space, an escape, a surrogate pair, a repeated name and numbers of every kind. -/
def jsonTextSample : Str :=
  c!" { \"a\" : [ 1 , -2 , 1.50 , -0 , 18446744073709551616 ],\n\"\\u0062\" : \"\\uD83D\\ude00\\/\" , \"a\" : null } "

example : JsonText jsonTextSample (.obj [(c!"a", .null), (c!"b", .str c!"😀/")]) :=
  (C73_json_text _ _).1 (by decide +kernel)

example : JsonText c!"[1, -2, 1.50, -0, 18446744073709551616, 1e3]"
    (.arr [.int 1, .int (-2), .flt c!"1.50", .flt c!"-0", .flt c!"18446744073709551616", .flt c!"1e3"]) :=
  (C73_json_text _ _).1 (by decide +kernel)

example : ∃ s : Str, utf8 jsonTextSample = s.flatMap String.utf8EncodeChar ∧
    JsonText s (.obj [(c!"a", .null), (c!"b", .str c!"😀/")]) :=
  (C73_json_bytes _ _).1 (by decide +kernel)

example : JsonText (jPrint jsonSample) jsonSample := C73_json_written _ jsonSample_wf (by decide)

/-- A lone surrogate, an upper-case escape, a trailing comma, a leading zero, a raw control character, a
name without quotes, a missing digit and something after the value: no JSON texts. -/
example : ∀ s ∈ [c!"\"\\ud83d\"", c!"\"\\ud83d\\u0041\"", c!"\"\\ude00\"", c!"\"\\N\"", c!"[1,]", c!"01",
    ['"', '\n', '"'], c!"{a:1}", c!"1.", c!"+1", c!"null null", c!""], ∀ j, ¬ JsonText s j := by
  intro s hs j h
  have key : ∀ s ∈ [c!"\"\\ud83d\"", c!"\"\\ud83d\\u0041\"", c!"\"\\ude00\"", c!"\"\\N\"", c!"[1,]", c!"01",
    ['"', '\n', '"'], c!"{a:1}", c!"1.", c!"+1", c!"null null", c!""], (jParse s).toOption = none := by
    decide +kernel
  have := key s hs
  rw [jParse_iff.2 h] at this
  cases this

/-- Bytes that are not UTF-8 are no JSON. -/
example : jParseBytes [0x22, 0xff, 0x22] = .error .decode := by decide +kernel

end Oid4vp
