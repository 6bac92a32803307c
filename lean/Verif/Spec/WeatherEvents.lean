import Verif.Spec.Decimal
import Verif.Spec.Weather

/-!
Beginning and ending of weather as written in remarks, e.g. `RAB05E30SNB1920E55`.
-/

namespace Metaf.Spec

/-- One event as written. `what` is left out when the phenomenon is that of the event before. -/
structure EventForm where
  what : Option (Descriptor × List Weather)
  ending : Bool
  hour : Option Nat
  minute : Nat

namespace EventForm

def Ok (f : EventForm) : Prop :=
  (∀ p ∈ f.what, AllowedWeather false .NONE p.1 p.2) ∧ (∀ h ∈ f.hour, h < 100) ∧ f.minute < 100

def names (f : EventForm) : Str :=
  match f.what with
  | some p => weatherWritten .NONE p.1 p.2
  | none => []

def text (f : EventForm) : Str :=
  f.names ++ [if f.ending then 'E' else 'B'] ++ ((f.hour.map (decimal 2)).getD [] ++ decimal 2 f.minute)

end EventForm

/-- One event as understood. -/
structure Event where
  descriptor : Descriptor
  weather : List Weather
  ending : Bool
  hour : Nat
  minute : Nat

/-- An event that took place at a time of day that exists. -/
def Event.timely (e : Event) : Prop := e.hour ≤ 24 ∧ e.minute ≤ 59

instance (e : Event) : Decidable e.timely := by unfold Event.timely; infer_instance

/-- What an event means, given the hour of the report and the phenomenon of the event before. -/
def readEvent (reportHour : Nat) (before : Option (Descriptor × List Weather)) (f : EventForm) : Option Event :=
  (f.what.or before).map fun p => ⟨p.1, p.2, f.ending, f.hour.getD reportHour, f.minute⟩

/-- What a sequence of events means. An event without phenomenon refers to the one before it, which
must have an existing time of day. -/
def readEvents (reportHour : Nat) : Option (Descriptor × List Weather) → List EventForm → Option (List Event)
  | _, [] => some []
  | before, f :: fs =>
    match readEvent reportHour before f with
    | none => none
    | some e =>
      (readEvents reportHour (if e.timely then some (e.descriptor, e.weather) else none) fs).map (e :: ·)

end Metaf.Spec
