import Verif.Model.ExplainPage

/-!
Model of the options of the web page `/repo/examples/shellfiles/summary_shell.html`: the units and the distance,
which are kept in the address (lines 946-991, 1093, 1112-1121 and 1141-1147).

Simplifications. The numbers of JavaScript are a parameter (`Numbers`). The texts of the options and what they
refer to are kept, the markup around them is not. The exception thrown by `decodeURIComponent` ends the function.
-/

namespace Metaf.PageOptions

open ExplainPage (JsText decodeURIComponent)

/-- The units of a text of ASCII characters, summary_shell.html:946-991. -/
def js (t : Str) : JsText := t.map Char.toNat

/-- Numbers of JavaScript other than NaN, where 0 and -0 are not distinguished, as `==` does
(summary_shell.html:971-977): `Number` of a text (`none` is NaN), `ToString` and the integers. -/
structure Numbers (N : Type) where
  number : JsText → Option N
  text : N → JsText
  ofNat : Nat → N

/-- What ECMA-262 says on them: `Number` of the text of a number is the number, the text consists of digits and
the characters of `.+-einfIty`, and small integers are written in decimal digits; zero is written `0` too
(summary_shell.html:964-965 and 1143). -/
structure Numbers.Lawful {N : Type} (num : Numbers N) : Prop where
  number_text : ∀ n, num.number (num.text n) = some n
  text_chars : ∀ n, ∀ u ∈ num.text n, (48 ≤ u ∧ u ≤ 57) ∨ u ∈ js c!".+-einfIty"
  text_ofNat : ∀ k < 1000, num.text (num.ofNat k) = (Nat.toDigits 10 k).map Char.toNat

/-- `split`, summary_shell.html:950 and 952, with a separator of one character. -/
def split (sep : Nat) : JsText → List JsText
  | [] => [[]]
  | u :: rest =>
    if u = sep then [] :: split sep rest
    else
      match split sep rest with
      | [] => [[u]]
      | w :: ws => (u :: w) :: ws

/-- The loop of `findGetParameter`, summary_shell.html:951-954. An item without `=` has the value `undefined`,
which `decodeURIComponent` takes as a text. -/
def findIn (parameterName : JsText) : List JsText → Option JsText → Option (Option JsText)
  | [], result => some result
  | item :: items, result =>
    let tmp := split 61 item
    if tmp.head? = some parameterName then
      match decodeURIComponent ((tmp[1]?).getD (js c!"undefined")) with
      | none => none
      | some v => findIn parameterName items (some v)
    else findIn parameterName items result

/-- `findGetParameter`, summary_shell.html:946-956. The first argument is `location.search`. The outer `none`: an
exception is thrown. -/
def findGetParameter (search : JsText) (parameterName : JsText) : Option (Option JsText) :=
  findIn parameterName (split 38 (search.drop 1)) none

/-- An option: whether it is marked (`option_on`), what it refers to, its caption. -/
structure Choice where
  marked : Bool
  href : JsText
  caption : Str
  deriving DecidableEq, Repr

/-- `displayUnitOptions`, summary_shell.html:958-968. -/
def unitOptions {N : Type} (num : Numbers N) (imperialUnits : Bool) (distance : N) : List Choice :=
  [{ marked := !imperialUnits, href := js c!"?distance=" ++ num.text distance,
     caption := c!"Metric<br>(&deg;C, km, km/h, hPa)" },
   { marked := imperialUnits, href := js c!"?distance=" ++ num.text distance ++ js c!"&unit=imperial",
     caption := c!"Imperial<br>(&deg;F, miles, mph, &quot;Hg)" }]

/-- `displayDistanceOptions`, summary_shell.html:970-991. -/
def distanceOptions {N : Type} [DecidableEq N] (num : Numbers N) (imperialUnits : Bool) (distance : N) :
    List Choice :=
  let unitParam := if imperialUnits then js c!"&unit=imperial" else []
  [{ marked := distance = num.ofNat 3, href := js c!"?distance=3" ++ unitParam, caption := c!"3 miles / 5 km" },
   { marked := distance = num.ofNat 10, href := js c!"?distance=10" ++ unitParam, caption := c!"10 miles / 16 km" },
   { marked := distance = num.ofNat 30, href := js c!"?distance=30" ++ unitParam, caption := c!"30 miles / 48 km" },
   { marked := distance = num.ofNat 75, href := js c!"?distance=75" ++ unitParam, caption := c!"75 miles / 120 km" },
   { marked := distance = num.ofNat 140, href := js c!"?distance=140" ++ unitParam,
     caption := c!"140 miles / 225 km" },
   { marked := distance = num.ofNat 320, href := js c!"?distance=320" ++ unitParam,
     caption := c!"320 miles / 515 km" },
   { marked := distance = num.ofNat 500, href := js c!"?distance=500" ++ unitParam,
     caption := c!"500 miles / 804 km" }]

/-- The distance of `updateOptions`, summary_shell.html:1143-1144; `Number(null)` is 0. -/
def optionsDistance {N : Type} [DecidableEq N] (num : Numbers N) (search : JsText) : Option N :=
  (findGetParameter search (js c!"distance")).map fun p =>
    match (match p with
      | none => some (num.ofNat 0)
      | some t => num.number t) with
    | none => num.ofNat 30
    | some d => if d = num.ofNat 0 then num.ofNat 30 else d

/-- The options which are shown, `updateOptions`, summary_shell.html:1141-1147: units and distances. -/
def updateOptions {N : Type} [DecidableEq N] (num : Numbers N) (search : JsText) :
    Option (List Choice × List Choice) :=
  match findGetParameter search (js c!"unit"), optionsDistance num search with
  | some u, some d =>
    let paramUnit := decide (u = some (js c!"imperial"))
    some (unitOptions num paramUnit d, distanceOptions num paramUnit d)
  | _, _ => none

/-- The distance for which data are requested, `getPositionSuccess`, summary_shell.html:1117-1118. -/
def requestDistance {N : Type} [DecidableEq N] (num : Numbers N) (search : JsText) : Option N :=
  (findGetParameter search (js c!"distance")).map fun p =>
    match (match p with
      | none => some (num.ofNat 0)
      | some t => num.number t) with
    | none => num.ofNat 30
    | some d => if d = num.ofNat 0 then num.ofNat 30 else d

/-- The units in which the data are shown, summary_shell.html:1093. -/
def dataImperial (search : JsText) : Option Bool :=
  (findGetParameter search (js c!"unit")).map fun u => decide (u = some (js c!"imperial"))

end Metaf.PageOptions
