import Verif.Model.Explain

/-!
Model of the web page `/repo/examples/shellfiles/explain_shell.html`, which explains the report in its input
field and keeps it in the address, and of the start of the program behind it (explain.cpp:3147-3151).

Simplifications. Of the page there are the input field, the fragment of the address and the rows of the table.
The style sheet, the console and the history of the browser are not modelled. The functions of JavaScript and of
the browser which the script uses are modelled as ECMA-262 and the URL standard define them; an exception ends
the handler in which it is thrown.
-/

namespace Metaf.ExplainPage

variable [FloatSem]

/-- A text in JavaScript: code units of UTF-16. -/
abbrev JsText := List Nat

/-! ### JavaScript -/

/-- A leading surrogate, used at explain_shell.html:57 by `encodeURIComponent` (ECMA-262, CodePointAt). -/
def isLeading (u : Nat) : Bool := 0xD800 ≤ u && u < 0xDC00

/-- A trailing surrogate, as above. -/
def isTrailing (u : Nat) : Bool := 0xDC00 ≤ u && u < 0xE000

/-- The code point of a pair of surrogates, explain_shell.html:57 and 59 (ECMA-262, UTF16SurrogatePairToCodePoint). -/
def pairValue (u v : Nat) : Nat := (u - 0xD800) * 1024 + (v - 0xDC00) + 0x10000

/-- The octets of a code point in UTF-8, explain_shell.html:57 and 59 (ECMA-262, Encode). -/
def utf8 (p : Nat) : List Nat :=
  if p < 0x80 then [p]
  else if p < 0x800 then [0xC0 + p / 64, 0x80 + p % 64]
  else if p < 0x10000 then [0xE0 + p / 4096, 0x80 + p / 64 % 64, 0x80 + p % 64]
  else [0xF0 + p / 262144, 0x80 + p / 4096 % 64, 0x80 + p / 64 % 64, 0x80 + p % 64]

/-- The code units of a code point in UTF-16, explain_shell.html:72 (ECMA-262, UTF16EncodeCodePoint). -/
def utf16 (p : Nat) : JsText :=
  if p < 0x10000 then [p] else [0xD800 + (p - 0x10000) / 1024, 0xDC00 + (p - 0x10000) % 1024]

/-- Characters `encodeURIComponent` leaves as they are, explain_shell.html:57: letters, digits and `-_.!~*'()`. -/
def unescaped (u : Nat) : Bool :=
  (65 ≤ u && u ≤ 90) || (97 ≤ u && u ≤ 122) || (48 ≤ u && u ≤ 57) ||
    [45, 95, 46, 33, 126, 42, 39, 40, 41].contains u

/-- A hexadecimal digit, explain_shell.html:57 (ECMA-262, Encode). -/
def hexDigit (n : Nat) : Nat := if n < 10 then 48 + n else 55 + n

/-- `%` and two hexadecimal digits for each octet, explain_shell.html:57 (ECMA-262, Encode). -/
def escapes : List Nat → JsText
  | [] => []
  | b :: bs => 37 :: hexDigit (b / 16) :: hexDigit (b % 16) :: escapes bs

/-- `encodeURIComponent`, explain_shell.html:57 and 76; `none` if it throws `URIError`. -/
def encodeURIComponent : JsText → Option JsText
  | [] => some []
  | [u] =>
    if unescaped u then some [u]
    else if isLeading u || isTrailing u then none
    else some (escapes (utf8 u))
  | u :: v :: rest =>
    if unescaped u then (encodeURIComponent (v :: rest)).map (u :: ·)
    else if isTrailing u then none
    else if isLeading u then
      if isTrailing v then (encodeURIComponent rest).map (escapes (utf8 (pairValue u v)) ++ ·) else none
    else (encodeURIComponent (v :: rest)).map (escapes (utf8 u) ++ ·)

/-- Value of a hexadecimal digit, explain_shell.html:72 (ECMA-262, ParseHexOctet). -/
def hexValue (u : Nat) : Option Nat :=
  if 48 ≤ u && u ≤ 57 then some (u - 48)
  else if 65 ≤ u && u ≤ 70 then some (u - 55)
  else if 97 ≤ u && u ≤ 102 then some (u - 87)
  else none

/-- ECMA-262, ParseHexOctet, explain_shell.html:72. -/
def hexOctet (a b : Nat) : Option Nat :=
  match hexValue a, hexValue b with
  | some x, some y => some (16 * x + y)
  | _, _ => none

/-- The escaped octets after the first one of a character and the text behind them, explain_shell.html:72
(ECMA-262, Decode). -/
def continuation : Nat → JsText → Option (List Nat × JsText)
  | 0, s => some ([], s)
  | k + 1, 37 :: a :: b :: s =>
    match hexOctet a b, continuation k s with
    | some o, some (os, r) => some (o :: os, r)
    | _, _ => none
  | _, _ => none

/-- The code point of which these octets are the encoding in UTF-8, explain_shell.html:72 (ECMA-262, Decode). -/
def utf8Value (os : List Nat) : Option Nat :=
  let p := match os with
    | [a] => a
    | [a, b] => (a - 0xC0) * 64 + (b - 0x80)
    | [a, b, c] => (a - 0xE0) * 4096 + (b - 0x80) * 64 + (c - 0x80)
    | [a, b, c, d] => (a - 0xF0) * 262144 + (b - 0x80) * 4096 + (c - 0x80) * 64 + (d - 0x80)
    | _ => 0x110000
  if utf8 p = os ∧ p < 0x110000 ∧ ¬ (isLeading p || isTrailing p) then some p else none

/-- `decodeURIComponent`, explain_shell.html:72; `none` if it throws `URIError`. The first argument bounds the
number of steps. -/
def decode : Nat → JsText → Option JsText
  | _, [] => some []
  | 0, _ :: _ => none
  | fuel + 1, u :: rest =>
    if u ≠ 37 then (decode fuel rest).map (u :: ·)
    else
      match rest with
      | a :: b :: s =>
        match hexOctet a b with
        | none => none
        | some o =>
          if o < 0x80 then (decode fuel s).map (o :: ·)
          else if o < 0xC0 || 0xF8 ≤ o then none
          else
            match continuation (if o < 0xE0 then 1 else if o < 0xF0 then 2 else 3) s with
            | none => none
            | some (os, r) =>
              match utf8Value (o :: os) with
              | none => none
              | some p => (decode fuel r).map (utf16 p ++ ·)
      | _ => none

/-- `decodeURIComponent`, explain_shell.html:72. -/
def decodeURIComponent (s : JsText) : Option JsText := decode s.length s

/-! ### The browser -/

/-- Characters which are left as they are in the fragment of an address, explain_shell.html:57 (URL standard,
fragment percent-encode set: controls, space and the characters `"<>` and backquote are replaced, and all
characters above `~`). -/
def fragmentSafe (u : Nat) : Bool := 33 ≤ u && u ≤ 126 && ![34, 60, 62, 96].contains u

/-- How a text is put into the fragment of an address, explain_shell.html:57 (URL standard, fragment state; tabs
and line breaks are removed). Unpaired surrogates, which are replaced by U+FFFD, do not occur here. -/
def fragmentEncode : JsText → JsText
  | [] => []
  | u :: rest =>
    if u = 9 || u = 10 || u = 13 then fragmentEncode rest
    else if fragmentSafe u then u :: fragmentEncode rest
    else escapes (utf8 u) ++ fragmentEncode rest

/-- What a text field keeps of a text assigned to it, explain_shell.html:73 and 75 (HTML standard: line breaks
are normalised). -/
def normalised : JsText → JsText
  | [] => []
  | [u] => if u = 13 then [10] else [u]
  | u :: v :: rest =>
    if u = 13 then (if v = 10 then 10 :: normalised rest else 10 :: normalised (v :: rest))
    else u :: normalised (v :: rest)

/-- The octets passed to the program for a text (`Module.ccall` with the type `string`), explain_shell.html:59-62. -/
def toUtf8 : JsText → List Nat
  | [] => []
  | [u] => utf8 u
  | u :: v :: rest =>
    if isLeading u && isTrailing v then utf8 (pairValue u v) ++ toUtf8 rest else utf8 u ++ toUtf8 (v :: rest)

/-- The text the program finds: the octets as characters, up to the first zero (explain.cpp:3103). -/
def cText (os : List Nat) : Str := (os.takeWhile (· ≠ 0)).map Char.ofNat

/-! ### The page -/

/-- The state of the page, explain_shell.html:48-97: whether the program is ready to be called, the input field,
the fragment of the address (empty if there is none), and what is assigned to the table by the script, or nothing
if its rows are deleted. -/
structure PageState where
  ready : Bool := false
  input : JsText := []
  fragment : JsText := []
  table : Option Str := none
  deriving DecidableEq, Repr

/-- The report which is shown if there is none in the address, explain_shell.html:69. -/
def sampleReportStr : Str :=
  c!"TAF UKLL 241107Z 2412/2512 35007G13MPS 4000 BR OVC005 TXM00/2412Z TNM05/2504Z TEMPO 2412/2418 33009G14MPS \
     1100 -SHSN BKN003 BKN020CB TEMPO 2418/2506 32009G14MPS 0400 +SHSN BKN002 BKN015CB TEMPO 2506/2512 \
     29008G14MPS 2100 -SHSN BKN006 BKN025CB="

/-- `clearTable`, explain_shell.html:48-52. -/
def clearTable (s : PageState) : PageState := { s with table := none }

/-- Assignment to `window.location.hash`, explain_shell.html:57 and 76; the text is given without `#`. -/
def setHash (s : PageState) (t : JsText) : PageState := { s with fragment := fragmentEncode t }

/-- `explain`, explain_shell.html:54-66. If an exception is thrown the rest is not done; `Module.ccall` throws one
if the program is not ready. -/
def explain (s : PageState) : PageState :=
  let s := clearTable s
  match encodeURIComponent s.input with
  | none => s
  | some e =>
    let s := setHash s e
    if !s.ready then s
    else
      match Explain.explain [] (cText (toUtf8 s.input)) with
      | .error _ => s
      | .ok result => { s with table := some result }

/-- `getInputFromHash`, explain_shell.html:68-79. `window.location.hash` is empty if the fragment is. -/
def getInputFromHash (s : PageState) : PageState :=
  if s.fragment ≠ [] then
    match decodeURIComponent s.fragment with
    | none => s
    | some report => { s with input := normalised report }
  else
    let sample := sampleReportStr.map Char.toNat
    let s := { s with input := normalised sample }
    match encodeURIComponent sample with
    | none => s
    | some e => setHash s e

/-- What happens on the page after it is opened: it is loaded (`onload`, explain_shell.html:83), the program is
started (explain.cpp:3147-3151, which calls `explain` of the script), and the visitor changes the input
(`onInput`, explain_shell.html:93). -/
inductive Event
  | loaded
  | started
  | typed (t : JsText)
  deriving DecidableEq, Repr

/-- One event, explain_shell.html:54-79, 83 and 93. -/
def step (s : PageState) : Event → PageState
  | .loaded => getInputFromHash s
  | .started => explain { s with ready := true }
  | .typed t => explain { s with input := normalised t }

/-- The page opened at an address with this fragment, after these events, explain_shell.html:54-93. -/
def after (fragment : JsText) (es : List Event) : PageState := es.foldl step { fragment := fragment }

end Metaf.ExplainPage
