import Verif.Model.GroupsB
import Verif.Spec.WeatherEvents
import Verif.Proofs.RegexText
import Verif.Proofs.Util
import Verif.Proofs.NoFault
import Verif.Props.Weather

/-!
C42: groups of weather phenomena.
-/

set_option linter.unusedSectionVars false

namespace Metaf.Props

open Metaf.Spec WeatherPhenomena WeatherGroup

/-! ### One event -/

/-- The phenomenon stored for an event. -/
def stored (e : Event) : WeatherPhenomena :=
  { data := pack .NONE e.descriptor e.weather (if e.ending then .ENDING else .BEGINNING),
    tm := some { hourValue := e.hour, minuteValue := e.minute } }

structure RawEvent where
  names : Str
  ending : Bool
  hour : Option Nat
  minute : Nat

namespace RawEvent

def Ok (f : RawEvent) : Prop :=
  ((∀ c ∈ f.names, 'A' ≤ c ∧ c ≤ 'Z') ∧ ∃ k ≤ 4, f.names.length = 2 * k) ∧ (∀ h ∈ f.hour, h < 100) ∧ f.minute < 100

def text (f : RawEvent) : Str :=
  f.names ++ [if f.ending then 'E' else 'B'] ++ ((f.hour.map (decimal 2)).getD [] ++ decimal 2 f.minute)

def caps (f : RawEvent) : Caps :=
  ((4, decimal 2 f.minute) :: ((f.hour.map fun h => [(3, decimal 2 h)]).getD [])) ++
    [(2, [if f.ending then 'E' else 'B']), (1, f.names)]

end RawEvent

theorem match_pairs {n : Nat} {w : Str} {c : Caps} :
    Rx.Match (.upTo (.AZ ⬝ .AZ) n) w c ↔
      c = [] ∧ (∀ x ∈ w, 'A' ≤ x ∧ x ≤ 'Z') ∧ ∃ k ≤ n, w.length = 2 * k := by
  induction n generalizing w c with
  | zero =>
    simp only [Rx.upTo, Rx.match_eps]
    constructor
    · rintro ⟨rfl, rfl⟩
      exact ⟨rfl, by simp, 0, by simp, rfl⟩
    · rintro ⟨rfl, _, k, hk, hl⟩
      exact ⟨List.length_eq_zero_iff.mp (by omega), rfl⟩
  | succ n ih =>
    simp only [Rx.upTo, Rx.match_opt]
    rw [Rx.match_seq]
    simp only [ih, Rx.match_seq (a := .AZ), Rx.match_AZ]
    constructor
    · rintro (⟨_, v, _, _, ⟨_, _, _, _, ⟨x, hx, rfl, rfl⟩, ⟨y, hy, rfl, rfl⟩, rfl, rfl⟩, ⟨rfl, ha, k, hk, hl⟩, rfl, rfl⟩ |
        ⟨rfl, rfl⟩)
      · refine ⟨rfl, ?_, k + 1, by omega, by simp [hl]; omega⟩
        intro z hz
        simp only [List.cons_append, List.nil_append, List.mem_cons] at hz
        rcases hz with rfl | rfl | hz
        · exact hx
        · exact hy
        · exact ha z hz
      · exact ⟨rfl, by simp, 0, by omega, rfl⟩
    · rintro ⟨rfl, ha, k, hk, hl⟩
      match w, ha, hl with
      | [], _, _ => exact Or.inr ⟨rfl, rfl⟩
      | [x], _, hl => simp only [List.length_cons, List.length_nil] at hl; omega
      | x :: y :: v, ha, hl =>
        refine Or.inl ⟨[x, y], v, [], [], ⟨[x], [y], [], [], ⟨x, ha x (by simp), rfl, rfl⟩, ⟨y, ha y (by simp), rfl, rfl⟩,
          rfl, rfl⟩, ⟨rfl, fun z hz => ha z (by simp [hz]), k - 1, by omega, ?_⟩, rfl, rfl⟩
        simp only [List.length_cons] at hl
        omega

theorem match_hourMinute {w : Str} {c : Caps} :
    Rx.Match (.opt (.cap 3 (.d ⬝ .d)) ⬝ .cap 4 (.d ⬝ .d)) w c ↔
      ∃ (h : Option Nat) (m : Nat), ((∀ x ∈ h, x < 100) ∧ m < 100) ∧ w = (h.map (decimal 2)).getD [] ++ decimal 2 m ∧
        c = (4, decimal 2 m) :: ((h.map fun h => [(3, decimal 2 h)]).getD []) := by
  rw [Rx.match_seq]
  simp only [Rx.match_opt, Rx.match_cap, ↓Rx.match_digits2]
  constructor
  · rintro ⟨_, _, _, _, ⟨_, ⟨rfl, h, hh, rfl⟩, rfl⟩ | ⟨rfl, rfl⟩, ⟨_, ⟨rfl, m, hm, rfl⟩, rfl⟩, rfl, rfl⟩
    · exact ⟨some h, m, ⟨by simpa using hh, hm⟩, rfl, rfl⟩
    · exact ⟨none, m, ⟨by simp, hm⟩, rfl, rfl⟩
  · rintro ⟨h, m, ⟨hh, hm⟩, rfl, rfl⟩
    refine ⟨(h.map (decimal 2)).getD [], decimal 2 m, (h.map fun h => [(3, decimal 2 h)]).getD [], [(4, decimal 2 m)], ?_,
      ⟨[], ⟨rfl, m, hm, rfl⟩, rfl⟩, rfl, rfl⟩
    cases h with
    | none => exact Or.inr ⟨rfl, rfl⟩
    | some h => exact Or.inl ⟨[], ⟨rfl, h, hh h rfl, rfl⟩, rfl⟩

theorem beginEnd_match (s : Str) (c : Caps) :
    beginEndRgx.Match s c ↔ ∃ f : RawEvent, f.Ok ∧ s = f.text ∧ c = f.caps := by
  unfold beginEndRgx
  rw [Rx.match_seq]
  simp only [Rx.match_cap (i := 1), ↓match_pairs, Rx.match_seq (a := .cap 2 _), Rx.match_cap (i := 2), Rx.match_oneOf,
    ↓match_hourMinute]
  constructor
  · rintro ⟨w, _, _, _, ⟨_, ⟨rfl, ha, hk⟩, rfl⟩, ⟨_, _, _, _, ⟨_, ⟨y, hy, rfl, rfl⟩, rfl⟩,
      ⟨h, m, ⟨hh, hm⟩, rfl, rfl⟩, rfl, rfl⟩, rfl, rfl⟩
    refine ⟨⟨w, decide (y = 'E'), h, m⟩, ⟨⟨ha, hk⟩, hh, hm⟩, ?_, ?_⟩
    · simp only [List.mem_cons, List.not_mem_nil, or_false] at hy
      rcases hy with rfl | rfl <;> simp [RawEvent.text]
    · simp only [List.mem_cons, List.not_mem_nil, or_false] at hy
      rcases hy with rfl | rfl <;> simp [RawEvent.caps]
  · rintro ⟨⟨w, e, h, m⟩, ⟨⟨ha, hk⟩, hh, hm⟩, rfl, rfl⟩
    refine ⟨w, [if e then 'E' else 'B'] ++ ((h.map (decimal 2)).getD [] ++ decimal 2 m), [(1, w)], _,
      ⟨[], ⟨rfl, ha, hk⟩, rfl⟩, ⟨[if e then 'E' else 'B'], _, [(2, [if e then 'E' else 'B'])], _,
        ⟨[], ⟨_, ?_, rfl, rfl⟩, rfl⟩, ⟨h, m, ⟨hh, hm⟩, rfl, rfl⟩, rfl, rfl⟩, ?_, ?_⟩
    · cases e <;> simp
    · simp [RawEvent.text]
    · simp [RawEvent.caps]

/-- A text of characters that are not digits, followed by digits, is split in one way. -/
theorem split_digits {a b x y : Str} (ha : ∀ c ∈ a, isDigit c = false) (hb : ∀ c ∈ b, isDigit c = false)
    (hx : ∀ c ∈ x.head?, isDigit c = true) (hy : ∀ c ∈ y.head?, isDigit c = true)
    (h : a ++ x = b ++ y) : a = b ∧ x = y := by
  induction a generalizing b with
  | nil =>
    cases b with
    | nil => exact ⟨rfl, h⟩
    | cons c b =>
      simp only [List.nil_append] at h
      subst h
      have := hx c (by simp)
      rw [hb c (by simp)] at this
      cases this
  | cons c a ih =>
    cases b with
    | nil =>
      simp only [List.nil_append] at h
      subst h
      have := hy c (by simp)
      rw [ha c (by simp)] at this
      cases this
    | cons e b =>
      simp only [List.cons_append, List.cons.injEq] at h
      obtain ⟨h1, h2⟩ := ih (fun c hc => ha c (by simp [hc])) (fun c hc => hb c (by simp [hc])) h.2
      exact ⟨by rw [h.1, h1], h2⟩

theorem capital_not_digit {c : Char} (h : 'A' ≤ c ∧ c ≤ 'Z') : isDigit c = false := by
  have h1 : 65 ≤ c.toNat := h.1
  simp only [isDigit, Bool.and_eq_false_iff, decide_eq_false_iff_not]
  right
  have : ('9' : Char).toNat = 57 := rfl
  omega

theorem hourMinute_digits (h : Option Nat) (m : Nat) :
    ∀ c ∈ (h.map (decimal 2)).getD [] ++ decimal 2 m, isDigit c = true := by
  intro c hc
  rcases List.mem_append.mp hc with hc | hc
  · cases h with
    | none => cases hc
    | some h => exact decimal_digits _ _ c hc
  · exact decimal_digits _ _ c hc

theorem hourMinute_ne_nil (h : Option Nat) (m : Nat) : (h.map (decimal 2)).getD [] ++ decimal 2 m ≠ [] := by
  intro e
  have := congrArg List.length e
  rw [List.length_append, decimal_length] at this
  simp at this

theorem eventHead_not_digit {w : Str} (e : Bool) (hw : ∀ c ∈ w, 'A' ≤ c ∧ c ≤ 'Z') :
    ∀ c ∈ w ++ [if e then 'E' else 'B'], isDigit c = false := by
  intro c hc
  rcases List.mem_append.mp hc with hc | hc
  · exact capital_not_digit (hw c hc)
  · rw [List.mem_singleton.mp hc]
    cases e <;> rfl

theorem all_head {p : Char → Prop} {s : Str} (h : ∀ c ∈ s, p c) : ∀ c ∈ s.head?, p c :=
  fun c hc => h c (List.mem_of_mem_head? hc)

theorem hourMinute_inj {h h' : Option Nat} {m m' : Nat} (hh : ∀ x ∈ h, x < 100) (hh' : ∀ x ∈ h', x < 100)
    (hm : m < 100) (hm' : m' < 100)
    (e : (h.map (decimal 2)).getD [] ++ decimal 2 m = (h'.map (decimal 2)).getD [] ++ decimal 2 m') :
    h = h' ∧ m = m' := by
  have hl := congrArg List.length e
  simp only [List.length_append, decimal_length] at hl
  obtain ⟨e1, e2⟩ := List.append_inj e (by omega)
  have em := decimal_inj (k := 2) (by omega) (by omega) e2
  refine ⟨?_, em⟩
  cases h with
  | none =>
    cases h' with
    | none => rfl
    | some x => have := congrArg List.length e1; simp [decimal_length] at this
  | some x =>
    cases h' with
    | none => have := congrArg List.length e1; simp [decimal_length] at this
    | some y =>
      simp only [Option.map_some, Option.getD_some] at e1
      rw [decimal_inj (k := 2) (by have := hh x rfl; omega) (by have := hh' y rfl; omega) e1]

theorem raw_inj (f f' : RawEvent) (h : f.Ok) (h' : f'.Ok) (e : f.text = f'.text) : f = f' := by
  obtain ⟨w, b, o, m⟩ := f
  obtain ⟨w', b', o', m'⟩ := f'
  obtain ⟨e1, e2⟩ := split_digits (eventHead_not_digit b h.1.1) (eventHead_not_digit b' h'.1.1)
    (all_head (hourMinute_digits _ _)) (all_head (hourMinute_digits _ _)) e
  obtain ⟨rfl, rfl⟩ := hourMinute_inj h.2.1 h'.2.1 h.2.2 h'.2.2 e2
  obtain ⟨rfl, e3⟩ := List.append_inj' e1 rfl
  have : b = b' := by
    cases b <;> cases b' <;> simp_all
  rw [this]

theorem regexMatch_beginEnd (s : Str) (m : Caps) :
    regexMatch beginEndRgx s = some m ↔ ∃ f : RawEvent, f.Ok ∧ s = f.text ∧ m = f.caps :=
  regexMatch_form beginEnd_match (fun f f' h h' e => by rw [raw_inj f f' h h' e]) s m

theorem raw_caps (f : RawEvent) :
    Caps.str f.caps 1 = f.names ∧ Caps.str f.caps 2 = [if f.ending then 'E' else 'B'] ∧
      Caps.str f.caps 3 = (f.hour.map (decimal 2)).getD [] ∧ Caps.str f.caps 4 = decimal 2 f.minute := by
  obtain ⟨w, b, h, m⟩ := f
  cases h <;> exact ⟨rfl, rfl, rfl, rfl⟩

theorem stoi_two {n : Nat} (h : n < 100) : stoi (decimal 2 n) = n := by
  rw [decimal_two]
  simp only [stoi, List.foldl_cons, List.foldl_nil]
  rw [digitVal_digitChar (by omega), digitVal_digitChar (by omega)]
  omega

/-- Letters of allowed weather. -/
theorem allowed_names {d : Descriptor} {ws : List Weather} (h : AllowedWeather false .NONE d ws) :
    (∀ c ∈ weatherWritten .NONE d ws, 'A' ≤ c ∧ c ≤ 'Z') ∧
      (∃ k ≤ 4, (weatherWritten .NONE d ws).length = 2 * k) ∧ weatherWritten .NONE d ws ≠ [] := by
  obtain ⟨h3, _, hne, _⟩ := allowed_length h
  have hnr : ∀ w ∈ ws, w ≠ .NOT_REPORTED := by
    rintro w hw rfl
    cases h with
    | plain h =>
      clear h3 hne
      cases h with
      | drifting w h => exact absurd (List.mem_singleton.mp hw ▸ h) (by decide)
      | blowing w h => exact absurd (List.mem_singleton.mp hw ▸ h) (by decide)
      | single w h => exact absurd (List.mem_singleton.mp hw ▸ h) (by decide)
      | _ => simp at hw
    | qualified e => cases e
    | intensity e => cases e
    | precipitation _ h => exact absurd (h.kind _ hw) (by decide)
  have hd : (∀ c ∈ descriptorText d, 'A' ≤ c ∧ c ≤ 'Z') ∧
      ((descriptorText d).length = 2 ∨ (d = .NONE ∧ (descriptorText d).length = 0)) := by
    cases d <;> decide
  have hw : ∀ w : Weather, w ≠ .NOT_REPORTED →
      (∀ c ∈ weatherText w, 'A' ≤ c ∧ c ≤ 'Z') ∧ (weatherText w).length = 2 := by
    intro w hw
    cases w <;> first | exact absurd rfl hw | decide
  have hlen : ∀ l : List Weather, (∀ w ∈ l, w ≠ .NOT_REPORTED) → ((l.map weatherText).flatten).length = 2 * l.length := by
    intro l
    induction l with
    | nil => intro _; rfl
    | cons x l ih =>
      intro hl
      simp only [List.map_cons, List.flatten_cons, List.length_append, List.length_cons, (hw x (hl x (by simp))).2,
        ih fun w hw => hl w (by simp [hw])]
      omega
  have hl := hlen ws hnr
  refine ⟨?_, ?_, ?_⟩
  · intro c hc
    simp only [weatherWritten, qualifierText, List.nil_append, List.mem_append, List.mem_flatten, List.mem_map] at hc
    rcases hc with hc | ⟨_, ⟨w, hw1, rfl⟩, hc⟩
    · exact hd.1 c hc
    · exact (hw w (hnr w hw1)).1 c hc
  · simp only [weatherWritten, qualifierText, List.nil_append, List.length_append, hl]
    rcases hd.2 with h | ⟨_, h⟩
    · exact ⟨ws.length + 1, by omega, by omega⟩
    · exact ⟨ws.length, by omega, by omega⟩
  · intro e
    have := congrArg List.length e
    simp only [weatherWritten, qualifierText, List.nil_append, List.length_append, hl, List.length_nil] at this
    rcases hd.2 with h | ⟨h0, h⟩
    · omega
    · exact hne rfl h0 (List.length_eq_zero_iff.mp (by omega))

theorem form_raw {f : EventForm} (h : f.Ok) : RawEvent.Ok ⟨f.names, f.ending, f.hour, f.minute⟩ := by
  obtain ⟨what, e, o, m⟩ := f
  refine ⟨?_, h.2⟩
  cases what with
  | none => exact ⟨by simp [EventForm.names], 0, by simp, rfl⟩
  | some p => exact ⟨(allowed_names (h.1 p rfl)).1, (allowed_names (h.1 p rfl)).2.1⟩

/-- What the event before provides for the next one. -/
def Provides (prev : WeatherPhenomena) (before : Option (Descriptor × List Weather)) : Prop :=
  (prev = {} ∧ before = none) ∨
  ∃ e : Event, AllowedWeather false .NONE e.descriptor e.weather ∧ prev = stored e ∧
    before = if e.timely then some (e.descriptor, e.weather) else none

theorem stored_fields (e : Event) (h : e.weather.length ≤ 3) :
    (stored e).qualifier = .NONE ∧ (stored e).descriptor = e.descriptor ∧ (stored e).weather = e.weather ∧
      (stored e).event = (if e.ending then .ENDING else .BEGINNING) ∧
      (stored e).tm = some { hourValue := e.hour, minuteValue := e.minute } :=
  C40_lossless .NONE e.descriptor e.weather _ _ h

theorem provides_valid {prev : WeatherPhenomena} {before : Option (Descriptor × List Weather)}
    (h : Provides prev before) :
    prev.isValid = .ok before.isSome ∧
      ∀ p ∈ before, AllowedWeather false .NONE p.1 p.2 ∧ prev.qualifier = .NONE ∧ prev.descriptor = p.1 ∧ prev.weather = p.2 := by
  rcases h with ⟨rfl, rfl⟩ | ⟨e, ha, rfl, rfl⟩
  · exact ⟨by decide, by simp⟩
  · obtain ⟨h1, h2, h3, h4⟩ := allowed_length ha
    obtain ⟨e1, e2, e3, e4, e5⟩ := stored_fields e h1
    constructor
    · unfold WeatherPhenomena.isValid
      rw [e1, e2, e3, e5]
      simp only
      rw [if_neg (by rintro ⟨_, hd, hl⟩; exact h3 rfl hd (List.length_eq_zero_iff.mp hl))]
      by_cases ht : e.timely
      · rw [if_pos ht]
        rw [if_neg (by
          obtain ⟨t1, t2⟩ := ht
          simp [MetafTime.isValid, t1, t2])]
        by_cases hd : e.descriptor = .FREEZING
        · rw [if_pos hd]
          obtain ⟨w, hw, hf⟩ := h4 hd
          obtain ⟨i, hi, hwi⟩ := List.getElem_of_mem hw
          rw [fzLoop_ok e.weather 3 0 ⟨i, by omega, by omega, w, by rw [List.getElem?_eq_getElem hi, hwi], hf⟩]
          rfl
        · rw [if_neg hd]
          rfl
      · rw [if_neg ht]
        rw [if_pos (by
          simp only [Event.timely, not_and_or, not_le] at ht
          simp only [MetafTime.isValid, Option.any_some, Option.getD_none]
          rcases ht with ht | ht
          · simp [ht]
          · simp only [gt_iff_lt, ht, ite_true]; simp)]
        rfl
    · intro p hp
      by_cases ht : e.timely
      · rw [if_pos ht] at hp
        obtain rfl := Option.some.inj hp
        exact ⟨ha, e1, e2, e3⟩
      · rw [if_neg ht] at hp
        cases hp

/-- One event of a remark. -/
theorem beginEnd_iff (s : Str) (rt : MetafTime) (prev : WeatherPhenomena)
    (before : Option (Descriptor × List Weather)) (hp : Provides prev before) (w : WeatherPhenomena) :
    fromWeatherBeginEndString s rt prev = .ok (some w) ↔
      ∃ f e, f.Ok ∧ s = f.text ∧ readEvent rt.hourValue before f = some e ∧ w = stored e := by
  obtain ⟨hv, hb⟩ := provides_valid hp
  have hhour : ∀ f : RawEvent, f.Ok →
      (if (Caps.str f.caps 3).isEmpty then rt.hourValue else stoi (Caps.str f.caps 3)) = f.hour.getD rt.hourValue := by
    intro f hf
    rw [(raw_caps f).2.2.1]
    cases ho : f.hour with
    | none => rfl
    | some h =>
      have h2 := hf.2.1 h ho
      simp only [Option.map_some, Option.getD_some, stoi_two h2]
      rw [if_neg]
      rw [decimal_two]
      simp
  have hev : ∀ f : RawEvent, (if Caps.str f.caps 2 = c!"E" then WeatherEvent.ENDING else .BEGINNING) =
      if f.ending then .ENDING else .BEGINNING := by
    intro f
    rw [(raw_caps f).2.1]
    cases f.ending <;> rfl
  constructor
  · intro h
    unfold fromWeatherBeginEndString at h
    cases hm : regexMatch beginEndRgx s with
    | none => simp only [hm] at h; cases h
    | some m =>
      obtain ⟨f, hf, rfl, rfl⟩ := (regexMatch_beginEnd s m).mp hm
      simp only [hm, hhour f hf, hev f, (raw_caps f).2.2.2, (raw_caps f).1, stoi_two hf.2.2] at h
      obtain ⟨names, ending, hour, minute⟩ := f
      simp only at h
      cases hn : names.isEmpty with
      | false =>
        simp only [hn, Bool.not_false, if_true] at h
        cases hs : fromString names with
        | none => simp only [hs] at h; cases h
        | some ph =>
          simp only [hs] at h
          obtain ⟨q, d, ws, ha, rfl, rfl⟩ := (C41_weather _ _ _).mp hs
          have hq : q = .NONE := by
            cases ha with
            | plain => rfl
            | qualified e => cases e
            | intensity e => cases e
            | precipitation => rfl
          subst hq
          obtain ⟨e1, e2, e3, _⟩ := C40_lossless .NONE d ws .NONE none (allowed_length ha).1
          change (made .NONE d ws).qualifier = _ at e1
          change (made .NONE d ws).descriptor = _ at e2
          change (made .NONE d ws).weather = _ at e3
          rw [e1, e2, e3] at h
          refine ⟨⟨some (d, ws), ending, hour, minute⟩, ⟨d, ws, ending, hour.getD rt.hourValue, minute⟩,
            ⟨by simpa using ha, hf.2⟩, rfl, rfl, ?_⟩
          exact (Option.some.inj (Except.ok.inj h)).symm
      | true =>
        simp only [hn, Bool.not_true, Bool.false_eq_true, if_false, hv] at h
        obtain rfl : names = [] := by simpa using hn
        cases hbb : before with
        | none => simp only [hbb] at h; cases h
        | some p =>
          obtain ⟨_, b1, b2, b3⟩ := hb p hbb
          simp only [hbb, Option.isSome_some, b1, b2, b3] at h
          exact ⟨⟨none, ending, hour, minute⟩, ⟨p.1, p.2, ending, hour.getD rt.hourValue, minute⟩, ⟨by simp, hf.2⟩, rfl, rfl,
            (Option.some.inj (Except.ok.inj h)).symm⟩
  · rintro ⟨f, e, hf, rfl, hr, rfl⟩
    have hraw := form_raw hf
    have hm := (regexMatch_beginEnd f.text _).mpr ⟨⟨f.names, f.ending, f.hour, f.minute⟩, hraw, rfl, rfl⟩
    unfold fromWeatherBeginEndString
    simp only [hm, hhour _ hraw, hev, (raw_caps _).2.2.2, (raw_caps _).1, stoi_two hf.2.2]
    obtain ⟨what, ending, hour, minute⟩ := f
    cases what with
    | some p =>
      obtain ⟨d, ws⟩ := p
      have ha := hf.1 (d, ws) rfl
      have hne := (allowed_names ha).2.2
      have hr : e = ⟨d, ws, ending, hour.getD rt.hourValue, minute⟩ := (Option.some.inj hr).symm
      subst hr
      have hn : (EventForm.names ⟨some (d, ws), ending, hour, minute⟩).isEmpty = false := by
        simpa [EventForm.names] using hne
      simp only [hn, Bool.not_false, if_true]
      rw [show fromString (EventForm.names ⟨some (d, ws), ending, hour, minute⟩) = some (made .NONE d ws) from
        (C41_weather _ _ _).mpr ⟨.NONE, d, ws, ha, rfl, rfl⟩]
      obtain ⟨e1, e2, e3, _⟩ := C40_lossless .NONE d ws .NONE none (allowed_length ha).1
      change (made .NONE d ws).qualifier = _ at e1
      change (made .NONE d ws).descriptor = _ at e2
      change (made .NONE d ws).weather = _ at e3
      simp only [e1, e2, e3]
      rfl
    | none =>
      cases hbb : before with
      | none => rw [hbb] at hr; cases hr
      | some p =>
        obtain ⟨_, b1, b2, b3⟩ := hb p hbb
        rw [hbb] at hr
        have hr : e = ⟨p.1, p.2, ending, hour.getD rt.hourValue, minute⟩ := (Option.some.inj hr).symm
        subst hr
        simp only [EventForm.names, List.isEmpty_nil, Bool.not_true, Bool.false_eq_true, if_false, hv, hbb,
          Option.isSome_some, b1, b2, b3]
        rfl

/-! ### A sequence of events -/

theorem read_allowed {h0 : Nat} {before : Option (Descriptor × List Weather)} {f : EventForm} {e : Event}
    (hf : f.Ok) (hb : ∀ p ∈ before, AllowedWeather false .NONE p.1 p.2) (h : readEvent h0 before f = some e) :
    AllowedWeather false .NONE e.descriptor e.weather := by
  obtain ⟨what, ending, hour, minute⟩ := f
  cases what with
  | some p =>
    rw [← Option.some.inj h]
    exact hf.1 p rfl
  | none =>
    cases before with
    | none => cases h
    | some p =>
      rw [← Option.some.inj h]
      exact hb p rfl

theorem text_split (f : EventForm) (h : f.Ok) : ∃ a b, f.text = a ++ b ∧ (∀ c ∈ a, isDigit c = false) ∧ a ≠ [] ∧
    (∀ c ∈ b, isDigit c = true) ∧ 2 ≤ b.length :=
  ⟨_, _, rfl, eventHead_not_digit _ (form_raw h).1.1, by simp, hourMinute_digits _ _, by
    rw [List.length_append, decimal_length]; omega⟩

/-- The sequence of texts of events begins with a character that is not a digit. -/
theorem texts_head {fs : List EventForm} (h : ∀ f ∈ fs, f.Ok) :
    ∀ c ∈ ((fs.map EventForm.text).flatten).head?, isDigit c = false := by
  cases fs with
  | nil => simp
  | cons f fs =>
    obtain ⟨a, b, e, ha, hne, _, _⟩ := text_split f (h f (by simp))
    obtain ⟨x, a', rfl⟩ : ∃ x a', a = x :: a' := by
      cases a with
      | nil => exact absurd rfl hne
      | cons x a' => exact ⟨x, a', rfl⟩
    intro c hc
    simp only [List.map_cons, List.flatten_cons, e, List.cons_append, List.head?_cons, Option.mem_def,
      Option.some.injEq] at hc
    rw [← hc]
    exact ha x (by simp)

theorem add_take (g : WeatherGroup) (w : WeatherPhenomena) (h : g.w.length ≤ 20) :
    (g.addWeatherPhenomena w).getD g = { g with w := (g.w ++ [w]).take 20 } := by
  unfold addWeatherPhenomena
  by_cases h20 : g.w.length ≥ wSize
  · rw [if_pos h20]
    simp only [wSize] at h20
    rw [List.take_append_of_le_length (by omega), List.take_of_length_le (by omega)]
    rfl
  · rw [if_neg h20]
    simp only [wSize, ge_iff_le, not_le] at h20
    rw [List.take_of_length_le (by simp; omega)]
    rfl

theorem take_take_append {α : Type} (n : Nat) (a l : List α) : (a.take n ++ l).take n = (a ++ l).take n := by
  by_cases h : a.length ≤ n
  · rw [List.take_of_length_le h]
  · rw [List.take_append_of_le_length (by rw [List.length_take]; omega),
      List.take_append_of_le_length (by omega), List.take_take, Nat.min_self]

theorem eventLoop_iff (rt : MetafTime) (rest n d : Str) (prev : WeatherPhenomena)
    (before : Option (Descriptor × List Weather)) (result g : WeatherGroup)
    (hn : ∀ c ∈ n, isDigit c = false) (hd : ∀ c ∈ d, isDigit c = true) (hp : Provides prev before)
    (h20 : result.w.length ≤ 20) :
    eventLoop rt rest (n ++ d) (!d.isEmpty) prev result = .ok (some g) ↔
      ∃ fs es, fs ≠ [] ∧ (∀ f ∈ fs, f.Ok) ∧ n ++ d ++ rest = (fs.map EventForm.text).flatten ∧
        readEvents rt.hourValue before fs = some es ∧
        g = { result with w := (result.w ++ es.map stored).take 20 } := by
  have hba := (provides_valid hp).2
  induction rest generalizing n d prev before result with
  | nil =>
    simp only [eventLoop, List.append_nil]
    constructor
    · intro h
      cases hw : fromWeatherBeginEndString (n ++ d) rt prev with
      | error f => simp only [hw] at h; cases h
      | ok o =>
        cases o with
        | none => simp only [hw] at h; cases h
        | some w =>
          simp only [hw] at h
          obtain ⟨f, e, hf, ht, hr, rfl⟩ := (beginEnd_iff _ _ _ _ hp _).mp hw
          refine ⟨[f], [e], by simp, by simpa using hf, by simpa using ht, ?_, ?_⟩
          · simp [readEvents, hr]
          · rw [add_take _ _ h20] at h
            exact (Option.some.inj (Except.ok.inj h)).symm
    · rintro ⟨fs, es, hne, hok, ht, hr, rfl⟩
      cases fs with
      | nil => exact absurd rfl hne
      | cons f fs =>
        have hfs : fs = [] := by
          cases fs with
          | nil => rfl
          | cons f2 fs =>
            exfalso
            obtain ⟨a, b, e, ha, hane, hb, hb2⟩ := text_split f (hok f (by simp))
            obtain ⟨a2, b2, e2, ha2, hane2, _, _⟩ := text_split f2 (hok f2 (by simp))
            simp only [List.map_cons, List.flatten_cons, e, e2, List.append_assoc] at ht
            obtain ⟨_, hdb⟩ := split_digits hn ha (all_head hd) (by
              cases b with
              | nil => simp at hb2
              | cons x b => intro c hc; simp at hc; rw [← hc]; exact hb x (by simp)) ht
            obtain ⟨x, a2', rfl⟩ : ∃ x a2', a2 = x :: a2' := by
              cases a2 with
              | nil => exact absurd rfl hane2
              | cons x a2' => exact ⟨x, a2', rfl⟩
            have h1 := hd x (by rw [hdb]; simp)
            rw [ha2 x (by simp)] at h1
            cases h1
        subst hfs
        simp only [readEvents] at hr
        cases he : readEvent rt.hourValue before f with
        | none => simp only [he] at hr; cases hr
        | some e =>
          simp only [he, Option.map_some, Option.some.injEq] at hr
          subst hr
          have hw := (beginEnd_iff (n ++ d) rt prev before hp (stored e)).mpr
            ⟨f, e, hok f (by simp), by simpa using ht, he, rfl⟩
          simp only [hw, add_take _ _ h20, List.map_cons, List.map_nil]
  | cons c cs ih =>
    simp only [eventLoop]
    by_cases hc : isDigit c = true
    · -- a digit continues the event
      simp only [hc, Bool.not_true, Bool.false_and, Bool.false_eq_true, if_false]
      have := ih n (d ++ [c]) prev before result hn (by
        intro x hx
        rcases List.mem_append.mp hx with hx | hx
        · exact hd x hx
        · rw [List.mem_singleton.mp hx]; exact hc) hp h20 hba
      rw [show (d ++ [c]).isEmpty = false by cases d <;> rfl] at this
      simp only [List.append_assoc, List.cons_append, List.nil_append, Bool.not_false] at this ⊢
      exact this
    · simp only [Bool.not_eq_true] at hc
      simp only [hc, Bool.not_false, Bool.true_and]
      cases d with
      | nil =>
        -- letters before the digits
        simp only [List.isEmpty_nil, Bool.not_true, Bool.false_eq_true, if_false]
        have := ih (n ++ [c]) [] prev before result (by
          intro x hx
          rcases List.mem_append.mp hx with hx | hx
          · exact hn x hx
          · rw [List.mem_singleton.mp hx]; exact hc) (by simp) hp h20 hba
        simp only [List.append_nil, List.isEmpty_nil, Bool.not_true, List.append_assoc, List.cons_append,
          List.nil_append] at this ⊢
        exact this
      | cons d0 d =>
        simp only [List.isEmpty_cons, Bool.not_false, if_true]
        -- the event written before `c` is complete
        have hsplit : ∀ fs : List EventForm, (∀ f ∈ fs, f.Ok) → fs ≠ [] →
            n ++ d0 :: d ++ c :: cs = (fs.map EventForm.text).flatten →
            ∃ f fs', fs = f :: fs' ∧ fs' ≠ [] ∧ n ++ d0 :: d = f.text ∧ c :: cs = (fs'.map EventForm.text).flatten := by
          intro fs hok hne ht
          cases fs with
          | nil => exact absurd rfl hne
          | cons f fs' =>
            obtain ⟨a, b, e, ha, _, hb, hb2⟩ := text_split f (hok f (by simp))
            simp only [List.map_cons, List.flatten_cons, e, List.append_assoc] at ht
            obtain ⟨rfl, ht2⟩ := split_digits hn ha (by
              intro x hx; simp at hx; rw [← hx]; exact hd d0 (by simp)) (by
              cases b with
              | nil => simp at hb2
              | cons x b => intro c hc; simp at hc; rw [← hc]; exact hb x (by simp)) ht
            obtain ⟨hdb, hrest⟩ := digits_prefix hd hb (by simpa using hc)
              (texts_head fun f hf => hok f (by simp [hf])) ht2
            refine ⟨f, fs', rfl, ?_, by rw [e, hdb], hrest⟩
            rintro rfl
            cases hrest
        by_cases hl : (n ++ d0 :: d).length < 3
        · rw [if_pos hl]
          simp only [Except.ok.injEq, reduceCtorEq, false_iff]
          rintro ⟨fs, es, hne, hok, ht, _, _⟩
          obtain ⟨f, fs', rfl, _, ht1, _⟩ := hsplit fs hok hne ht
          obtain ⟨a, b, e, _, hane, _, hb2⟩ := text_split f (hok f (by simp))
          rw [ht1, e, List.length_append] at hl
          have := List.length_pos_iff.mpr hane
          omega
        · rw [if_neg hl]
          constructor
          · intro h
            cases hw : fromWeatherBeginEndString (n ++ d0 :: d) rt prev with
            | error f => simp only [hw] at h; cases h
            | ok o =>
              cases o with
              | none => simp only [hw] at h; cases h
              | some w =>
                simp only [hw] at h
                obtain ⟨f, e, hf, ht, hr, rfl⟩ := (beginEnd_iff _ _ _ _ hp _).mp hw
                have hprov : Provides (stored e) (if e.timely then some (e.descriptor, e.weather) else none) :=
                  Or.inr ⟨e, read_allowed hf (fun p hp => (hba p hp).1) hr, rfl, rfl⟩
                rw [add_take _ _ h20] at h
                obtain ⟨fs, es, hne, hok, ht2, hr2, rfl⟩ := (ih [c] [] (stored e) _
                  { result with w := (result.w ++ [stored e]).take 20 } (by simpa using hc) (by simp) hprov
                  (by simp) (provides_valid hprov).2).mp (by simpa using h)
                refine ⟨f :: fs, e :: es, by simp, ?_, ?_, ?_, ?_⟩
                · intro x hx
                  rcases List.mem_cons.mp hx with rfl | hx
                  · exact hf
                  · exact hok x hx
                · simp only [List.map_cons, List.flatten_cons, ← ht2, ← ht]
                  simp
                · simp [readEvents, hr, hr2]
                · rw [take_take_append]
                  simp
          · rintro ⟨fs, es, hne, hok, ht, hr, rfl⟩
            obtain ⟨f, fs', rfl, hne', ht1, ht2⟩ := hsplit fs hok hne ht
            simp only [readEvents] at hr
            cases he : readEvent rt.hourValue before f with
            | none => simp only [he] at hr; cases hr
            | some e =>
              simp only [he] at hr
              obtain ⟨es', hes', rfl⟩ := Option.map_eq_some_iff.mp hr
              have hf := hok f (by simp)
              have hw := (beginEnd_iff (n ++ d0 :: d) rt prev before hp (stored e)).mpr ⟨f, e, hf, ht1, he, rfl⟩
              have hprov : Provides (stored e) (if e.timely then some (e.descriptor, e.weather) else none) :=
                Or.inr ⟨e, read_allowed hf (fun p hp => (hba p hp).1) he, rfl, rfl⟩
              simp only [hw, add_take _ _ h20]
              have := (ih [c] [] (stored e) _
                  { result with w := (result.w ++ [stored e]).take 20 } (by simpa using hc) (by simp) hprov
                  (by simp) (provides_valid hprov).2).mpr ⟨fs', es', hne', fun x hx => hok x (by simp [hx]),
                    by simpa using ht2, hes', by rw [take_take_append]; simp⟩
              simpa using this

/-- C42. Events in remarks: every event written is stored with its phenomenon, kind and time, in
order, up to the first twenty; nothing else is recognised. -/
theorem C42_events (s : Str) (rt : MetafTime) (g : WeatherGroup) :
    parseWeatherEvent s rt = .ok (some g) ↔
      ∃ fs es, fs ≠ [] ∧ (∀ f ∈ fs, f.Ok) ∧ s = (fs.map EventForm.text).flatten ∧
        readEvents rt.hourValue none fs = some es ∧ g = { t := .EVENT, w := (es.take 20).map stored } := by
  have := eventLoop_iff rt s [] [] {} none { t := .EVENT } g (by simp) (by simp) (Or.inl ⟨rfl, rfl⟩) (by simp)
  simpa [parseWeatherEvent, List.map_take] using this

theorem read_length {h0 : Nat} {fs : List EventForm} : ∀ {b : Option (Descriptor × List Weather)} {es : List Event},
    readEvents h0 b fs = some es → es.length = fs.length := by
  induction fs with
  | nil => intro b es h; rw [← Option.some.inj h]; rfl
  | cons f fs ih =>
    intro b es h
    simp only [readEvents] at h
    cases he : readEvent h0 b f with
    | none => simp only [he] at h; cases h
    | some e =>
      simp only [he] at h
      obtain ⟨es', h', rfl⟩ := Option.map_eq_some_iff.mp h
      simp [ih h']

theorem read_all_allowed {h0 : Nat} {fs : List EventForm} (hok : ∀ f ∈ fs, f.Ok) :
    ∀ {b : Option (Descriptor × List Weather)} {es : List Event},
    (∀ p ∈ b, AllowedWeather false .NONE p.1 p.2) → readEvents h0 b fs = some es →
    ∀ e ∈ es, AllowedWeather false .NONE e.descriptor e.weather := by
  induction fs with
  | nil => intro b es _ h; rw [← Option.some.inj h]; simp
  | cons f fs ih =>
    intro b es hb h
    simp only [readEvents] at h
    cases he : readEvent h0 b f with
    | none => simp only [he] at h; cases h
    | some e =>
      simp only [he] at h
      obtain ⟨es', h', rfl⟩ := Option.map_eq_some_iff.mp h
      have ha := read_allowed (hok f (by simp)) hb he
      intro x hx
      rcases List.mem_cons.mp hx with rfl | hx
      · exact ha
      · refine ih (fun f hf => hok f (by simp [hf])) ?_ h' x hx
        intro p hp
        split at hp
        · rw [← Option.some.inj hp]; exact ha
        · cases hp

/-- C42. What the accessors of the stored events return. -/
theorem C42_event_fields (s : Str) (rt : MetafTime) (g : WeatherGroup) (h : parseWeatherEvent s rt = .ok (some g)) :
    ∃ fs es, (∀ f ∈ fs, f.Ok) ∧ s = (fs.map EventForm.text).flatten ∧ readEvents rt.hourValue none fs = some es ∧
      es.length = fs.length ∧ g.w.length = min 20 fs.length ∧
      List.Forall₂ (fun (w : WeatherPhenomena) (e : Event) => w.qualifier = .NONE ∧ w.descriptor = e.descriptor ∧
        w.weather = e.weather ∧ w.event = (if e.ending then .ENDING else .BEGINNING) ∧
        w.tm = some { hourValue := e.hour, minuteValue := e.minute }) g.w (es.take 20) := by
  obtain ⟨fs, es, hne, hok, ht, hr, rfl⟩ := (C42_events s rt g).mp h
  have hl := read_length hr
  refine ⟨fs, es, hok, ht, hr, hl, by simp [hl], ?_⟩
  have hall := read_all_allowed hok (b := none) (by simp) hr
  have : ∀ l : List Event, (∀ e ∈ l, AllowedWeather false .NONE e.descriptor e.weather) →
      List.Forall₂ (fun (w : WeatherPhenomena) (e : Event) => w.qualifier = .NONE ∧ w.descriptor = e.descriptor ∧
        w.weather = e.weather ∧ w.event = (if e.ending then .ENDING else .BEGINNING) ∧
        w.tm = some { hourValue := e.hour, minuteValue := e.minute }) (l.map stored) l := by
    intro l
    induction l with
    | nil => intro _; exact .nil
    | cons e l ih =>
      intro hl
      exact .cons (stored_fields e (allowed_length (hl e (by simp))).1) (ih fun x hx => hl x (by simp [hx]))
  exact this _ fun e he => hall e (List.mem_of_mem_take he)

/-! ### Weather without events -/

/-- A word of the report that is weather with these components. Unknown weather is possible only in
METAR, and recent weather not in TAF. -/
def WeatherWord (s : Str) (p : ReportPart) (q : Qualifier) (d : Descriptor) (ws : List Weather) : Prop :=
  s = weatherWritten q d ws ∧
  ((p = .METAR ∧ (q = .NONE ∨ q = .RECENT) ∧ d = .NONE ∧ ws = [.NOT_REPORTED]) ∨
   ((p = .METAR ∨ p = .TAF ∧ q ≠ .RECENT) ∧ AllowedWeather true q d ws))

theorem notReported_made (b : Bool) :
    notReported b = made (if b then .RECENT else .NONE) .NONE [.NOT_REPORTED] := by
  cases b <;> decide

theorem made_qualifier (q : Qualifier) (d : Descriptor) (ws : List Weather) : (made q d ws).qualifier = q :=
  pack_qualifier ..

theorem weatherWord_iff (s : Str) (p : ReportPart) (wp : WeatherPhenomena) :
    parseWeatherWithoutEvent s p = some wp ↔ ∃ q d ws, WeatherWord s p q d ws ∧ wp = made q d ws := by
  have n1 : fromString c!"RE//" true = none := by decide +kernel
  have n2 : fromString c!"//" true = none := by decide +kernel
  constructor
  · intro h
    unfold parseWeatherWithoutEvent at h
    by_cases h0 : p ≠ .METAR ∧ p ≠ .TAF
    · rw [if_pos h0] at h; cases h
    rw [if_neg h0] at h
    by_cases h1 : p = .METAR ∧ s = c!"RE//"
    · rw [if_pos h1] at h
      obtain rfl := Option.some.inj h
      exact ⟨.RECENT, .NONE, [.NOT_REPORTED], ⟨h1.2, Or.inl ⟨h1.1, Or.inr rfl, rfl, rfl⟩⟩, notReported_made true⟩
    rw [if_neg h1] at h
    by_cases h2 : p = .METAR ∧ s = c!"//"
    · rw [if_pos h2] at h
      obtain rfl := Option.some.inj h
      exact ⟨.NONE, .NONE, [.NOT_REPORTED], ⟨h2.2, Or.inl ⟨h2.1, Or.inl rfl, rfl, rfl⟩⟩, notReported_made false⟩
    rw [if_neg h2] at h
    cases hf : fromString s true with
    | none => simp only [hf] at h; cases h
    | some w =>
      simp only [hf] at h
      obtain ⟨q, d, ws, ha, hs, rfl⟩ := (C41_weather _ _ _).mp hf
      rw [made_qualifier] at h
      by_cases h3 : p = .TAF ∧ q = .RECENT
      · rw [if_pos h3] at h; cases h
      · rw [if_neg h3] at h
        refine ⟨q, d, ws, ⟨hs, Or.inr ⟨?_, ha⟩⟩, (Option.some.inj h).symm⟩
        simp only [not_and_or, not_not] at h0
        rcases h0 with h0 | h0
        · exact Or.inl h0
        · exact Or.inr ⟨h0, fun hq => h3 ⟨h0, hq⟩⟩
  · rintro ⟨q, d, ws, ⟨hs, ⟨rfl, rfl | rfl, rfl, rfl⟩ | ⟨hp, ha⟩⟩, rfl⟩
    · subst hs; exact congrArg some (notReported_made false)
    · subst hs; exact congrArg some (notReported_made true)
    · have hf := (C41_weather s true _).mpr ⟨q, d, ws, ha, hs, rfl⟩
      unfold parseWeatherWithoutEvent
      rw [if_neg (by rcases hp with rfl | ⟨rfl, _⟩ <;> simp),
        if_neg (by rintro ⟨_, rfl⟩; rw [n1] at hf; cases hf),
        if_neg (by rintro ⟨_, rfl⟩; rw [n2] at hf; cases hf)]
      simp only [hf, made_qualifier]
      rw [if_neg]
      rintro ⟨rfl, rfl⟩
      rcases hp with h | ⟨_, h⟩
      · cases h
      · exact h rfl

/-- C42. Weather in the report itself. -/
theorem C42_parse (s : Str) (p : ReportPart) (hp : p = .METAR ∨ p = .TAF) (md : ReportMetadata) (g : WeatherGroup) :
    WeatherGroup.parse s p md = .ok (some g) ↔
      (s = c!"NSW" ∧ g = { t := .NSW }) ∨
      ∃ q d ws, WeatherWord s p q d ws ∧ g = { t := if q = .RECENT then .RECENT else .CURRENT, w := [made q d ws] } := by
  have h0 : WeatherGroup.parse s p md = if s = c!"NSW" then .ok (some { t := .NSW }) else
      match parseWeatherWithoutEvent s p with
      | none => .ok none
      | some wp => .ok (some { w := [wp], t := if wp.qualifier = .RECENT then .RECENT else .CURRENT }) := by
    rcases hp with rfl | rfl <;> rfl
  rw [h0]
  have n1 : parseWeatherWithoutEvent c!"NSW" .METAR = none := by decide +kernel
  have n2 : parseWeatherWithoutEvent c!"NSW" .TAF = none := by decide +kernel
  by_cases hs : s = c!"NSW"
  · rw [if_pos hs]
    constructor
    · intro h; exact Or.inl ⟨hs, (Option.some.inj (Except.ok.inj h)).symm⟩
    · rintro (⟨_, rfl⟩ | ⟨q, d, ws, hw, rfl⟩)
      · rfl
      · have := (weatherWord_iff s p _).mpr ⟨q, d, ws, hw, rfl⟩
        subst hs
        rcases hp with rfl | rfl
        · rw [n1] at this; cases this
        · rw [n2] at this; cases this
  · rw [if_neg hs]
    constructor
    · intro h
      cases hw : parseWeatherWithoutEvent s p with
      | none => simp only [hw] at h; cases h
      | some wp =>
        simp only [hw] at h
        obtain ⟨q, d, ws, hword, rfl⟩ := (weatherWord_iff _ _ _).mp hw
        rw [made_qualifier] at h
        exact Or.inr ⟨q, d, ws, hword, (Option.some.inj (Except.ok.inj h)).symm⟩
    · rintro (⟨h, _⟩ | ⟨q, d, ws, hw, rfl⟩)
      · exact absurd h hs
      · simp only [(weatherWord_iff s p _).mpr ⟨q, d, ws, hw, rfl⟩, made_qualifier]

/-- C42. Weather in remarks. -/
theorem C42_remark (s : Str) (md : ReportMetadata) (g : WeatherGroup) :
    WeatherGroup.parse s .RMK md = .ok (some g) ↔
      (s = c!"PWINO" ∧ g = { t := .PWINO }) ∨ (s = c!"TSNO" ∧ g = { t := .TSNO }) ∨
      (s = c!"WX" ∧ g = { t := .WX_MISG, incompleteText := .WX }) ∨
      (s = c!"TS/LTNG" ∧ g = { t := .TS_LTNG_TEMPO_UNAVBL, incompleteText := .TSLTNG }) ∨
      ∃ rt fs es, md.reportTime = some rt ∧ fs ≠ [] ∧ (∀ f ∈ fs, f.Ok) ∧ s = (fs.map EventForm.text).flatten ∧
        readEvents rt.hourValue none fs = some es ∧ g = { t := .EVENT, w := (es.take 20).map stored } := by
  constructor
  · intro h
    unfold WeatherGroup.parse at h
    simp only at h
    ite_cases h
    · exact Or.inl ⟨by assumption, (Option.some.inj (Except.ok.inj h)).symm⟩
    · exact Or.inr (Or.inl ⟨by assumption, (Option.some.inj (Except.ok.inj h)).symm⟩)
    · exact Or.inr (Or.inr (Or.inl ⟨by assumption, (Option.some.inj (Except.ok.inj h)).symm⟩))
    · exact Or.inr (Or.inr (Or.inr (Or.inl ⟨by assumption, (Option.some.inj (Except.ok.inj h)).symm⟩)))
    · cases hr : md.reportTime with
      | none => simp only [hr] at h; cases h
      | some rt =>
        simp only [hr] at h
        obtain ⟨fs, es, h1⟩ := (C42_events s rt g).mp h
        exact Or.inr (Or.inr (Or.inr (Or.inr ⟨rt, fs, es, rfl, h1⟩)))
  · rintro (⟨rfl, rfl⟩ | ⟨rfl, rfl⟩ | ⟨rfl, rfl⟩ | ⟨rfl, rfl⟩ | ⟨rt, fs, es, hr, h1⟩)
    · rfl
    · rfl
    · rfl
    · rfl
    · have h2 := (C42_events s rt g).mpr ⟨fs, es, h1⟩
      have hno : ∀ t, t = c!"PWINO" ∨ t = c!"TSNO" ∨ t = c!"WX" ∨ t = c!"TS/LTNG" →
          parseWeatherEvent t rt = .ok none := by
        rintro t (rfl | rfl | rfl | rfl) <;> rfl
      have hs : ¬ (s = c!"PWINO" ∨ s = c!"TSNO" ∨ s = c!"WX" ∨ s = c!"TS/LTNG") := by
        intro h
        rw [hno s h] at h2
        cases h2
      simp only [not_or] at hs
      unfold WeatherGroup.parse
      simp only
      rw [if_neg hs.1, if_neg hs.2.1, if_neg hs.2.2.1, if_neg hs.2.2.2]
      simp only [hr, h2]

/-- C42. A word is added to a weather group exactly when it is weather of the same kind (recent or
not) and less than twenty are stored; exactly the word is added, at the end. -/
theorem C42_append (g g' : WeatherGroup) (s : Str) (p : ReportPart) (hg : g.incompleteText = .NONE) :
    g.append s p = (g', .APPENDED) ↔
      g.w.length < 20 ∧ ∃ q d ws, WeatherWord s p q d ws ∧
        g.t = (if q = .RECENT then .RECENT else .CURRENT) ∧ g' = { g with w := g.w ++ [made q d ws] } := by
  unfold WeatherGroup.append
  rw [hg]
  simp only
  constructor
  · intro h
    by_cases ht : g.t ≠ .CURRENT ∧ g.t ≠ .RECENT
    · rw [if_pos ht] at h; cases (Prod.mk.inj h).2
    rw [if_neg ht] at h
    cases hw : parseWeatherWithoutEvent s p with
    | none => simp only [hw] at h; cases (Prod.mk.inj h).2
    | some wp =>
      simp only [hw] at h
      obtain ⟨q, d, ws, hword, rfl⟩ := (weatherWord_iff _ _ _).mp hw
      rw [made_qualifier] at h
      by_cases h1 : g.t = .CURRENT ∧ q = .RECENT
      · rw [if_pos h1] at h; cases (Prod.mk.inj h).2
      rw [if_neg h1] at h
      by_cases h2 : g.t = .RECENT ∧ q ≠ .RECENT
      · rw [if_pos h2] at h; cases (Prod.mk.inj h).2
      rw [if_neg h2] at h
      unfold addWeatherPhenomena at h
      by_cases h3 : g.w.length ≥ wSize
      · rw [if_pos h3] at h; cases (Prod.mk.inj h).2
      · rw [if_neg h3] at h
        refine ⟨by simpa [wSize] using h3, q, d, ws, hword, ?_, by rw [← (Prod.mk.inj h).1, hg]⟩
        by_cases hq : q = .RECENT
        · rw [if_pos hq]
          by_cases hr : g.t = .RECENT
          · exact hr
          · exact absurd ⟨fun h => h1 ⟨h, hq⟩, hr⟩ ht
        · rw [if_neg hq]
          by_cases hr : g.t = .CURRENT
          · exact hr
          · exact absurd ⟨hr, fun h => h2 ⟨h, hq⟩⟩ ht
  · rintro ⟨hl, q, d, ws, hword, ht, rfl⟩
    simp only [(weatherWord_iff s p _).mpr ⟨q, d, ws, hword, rfl⟩, made_qualifier]
    have hadd : g.addWeatherPhenomena (made q d ws) = some { g with w := g.w ++ [made q d ws] } := by
      unfold addWeatherPhenomena
      rw [if_neg (by simpa [wSize] using hl)]
    rw [hadd]
    by_cases hq : q = .RECENT
    · rw [if_pos hq] at ht
      simp [ht, hq, hg]
    · rw [if_neg hq] at ht
      simp [ht, hq, hg]

/-- C42. The words that complete a group begun in remarks. -/
theorem C42_words (g g' : WeatherGroup) (s : Str) (p : ReportPart) (hg : g.incompleteText ≠ .NONE) :
    g.append s p = (g', .APPENDED) ↔
      (g.incompleteText = .WX ∧ s = c!"MISG" ∧ g' = { g with incompleteText := .NONE }) ∨
      (g.incompleteText = .TSLTNG ∧ s = c!"TEMPO" ∧ g' = { g with incompleteText := .TSLTNG_TEMPO }) ∨
      (g.incompleteText = .TSLTNG_TEMPO ∧ s = c!"UNAVBL" ∧ g' = { g with incompleteText := .NONE }) := by
  unfold WeatherGroup.append
  cases hi : g.incompleteText with
  | NONE => exact absurd hi hg
  | WX =>
    by_cases h : s = c!"MISG"
    · simp only [h, ne_eq, not_true, if_false, Prod.mk.injEq, and_true, true_and, reduceCtorEq, false_and, or_false]
      exact eq_comm
    · simp only [h, ne_eq, not_false_eq_true, if_true, Prod.mk.injEq, and_false, reduceCtorEq, false_and, or_false]
  | TSLTNG =>
    by_cases h : s = c!"TEMPO"
    · simp only [h, ne_eq, not_true, if_false, Prod.mk.injEq, and_true, true_and, reduceCtorEq, false_and, or_false,
        false_or]
      exact eq_comm
    · simp only [h, ne_eq, not_false_eq_true, if_true, Prod.mk.injEq, and_false, reduceCtorEq, false_and, or_false]
  | TSLTNG_TEMPO =>
    by_cases h : s = c!"UNAVBL"
    · simp only [h, ne_eq, not_true, if_false, Prod.mk.injEq, and_true, true_and, reduceCtorEq, false_and, false_or]
      exact eq_comm
    · simp only [h, ne_eq, not_false_eq_true, if_true, Prod.mk.injEq, and_false, reduceCtorEq, false_and, or_false]

/-- C42. What is not added leaves the group as it was. -/
theorem C42_unchanged (g : WeatherGroup) (s : Str) (p : ReportPart) (h : (g.append s p).2 ≠ .APPENDED) :
    (g.append s p).1 = g := by
  unfold WeatherGroup.append at h ⊢
  cases hi : g.incompleteText <;> simp only [hi] at h ⊢
  · (repeat' split) <;> first | rfl | simp_all
  · split <;> first | rfl | simp_all
  · split <;> first | rfl | simp_all
  · split <;> first | rfl | simp_all

/-- Weather groups that arise from the words of a report. -/
inductive WeatherBuilt : WeatherGroup → Prop
  | parse {s : Str} {p : ReportPart} {md : ReportMetadata} {g : WeatherGroup} :
      WeatherGroup.parse s p md = .ok (some g) → WeatherBuilt g
  | append {s : Str} {p : ReportPart} {g : WeatherGroup} : WeatherBuilt g → WeatherBuilt (g.append s p).1

theorem weatherBuilt_induct {P : WeatherGroup → Prop}
    (h1 : ∀ t i, t ≠ .CURRENT → t ≠ .RECENT → P { t := t, incompleteText := i })
    (h2 : ∀ q d ws, P { t := if q = .RECENT then .RECENT else .CURRENT, w := [made q d ws] })
    (h3 : ∀ es : List Event, P { t := .EVENT, w := (es.take 20).map stored })
    (h4 : ∀ g q d ws, P g → g.w.length < 20 → g.t = (if q = .RECENT then .RECENT else .CURRENT) →
      P { g with w := g.w ++ [made q d ws] })
    (h5 : ∀ g i, P g → g.incompleteText ≠ .NONE → P { g with incompleteText := i })
    {g : WeatherGroup} (h : WeatherBuilt g) : P g := by
  induction h with
  | @parse s p md g h =>
    have hmain : p = .METAR ∨ p = .TAF → P g := by
      intro hp
      rcases (C42_parse s p hp md g).mp h with ⟨_, rfl⟩ | ⟨q, d, ws, _, rfl⟩
      · exact h1 _ _ (by decide) (by decide)
      · exact h2 q d ws
    cases p with
    | METAR => exact hmain (Or.inl rfl)
    | TAF => exact hmain (Or.inr rfl)
    | RMK =>
      rcases (C42_remark s md g).mp h with ⟨_, rfl⟩ | ⟨_, rfl⟩ | ⟨_, rfl⟩ | ⟨_, rfl⟩ | ⟨_, _, es, _, _, _, _, _, rfl⟩
      · exact h1 _ _ (by decide) (by decide)
      · exact h1 _ _ (by decide) (by decide)
      · exact h1 _ _ (by decide) (by decide)
      · exact h1 _ _ (by decide) (by decide)
      · exact h3 es
    | UNKNOWN => cases h
    | HEADER => cases h
  | @append s p g _ ih =>
    by_cases hr : (g.append s p).2 = .APPENDED
    · have he : g.append s p = ((g.append s p).1, .APPENDED) := by rw [← hr]
      by_cases hi : g.incompleteText = .NONE
      · obtain ⟨hl, q, d, ws, _, ht, e⟩ := (C42_append g _ s p hi).mp he
        rw [e]
        exact h4 g q d ws ih hl ht
      · rcases (C42_words g _ s p hi).mp he with ⟨_, _, e⟩ | ⟨_, _, e⟩ | ⟨_, _, e⟩ <;> rw [e] <;> exact h5 g _ ih hi
    · rw [C42_unchanged g s p hr]
      exact ih

/-- C42. At most twenty phenomena are stored. -/
theorem C42_limit {g : WeatherGroup} (h : WeatherBuilt g) : g.w.length ≤ 20 := by
  refine weatherBuilt_induct (P := fun g => g.w.length ≤ 20) ?_ ?_ ?_ ?_ ?_ h
  · simp
  · simp
  · intro es; simp
  · intro g q d ws _ hl _
    simp only [List.length_append, List.length_cons, List.length_nil]
    omega
  · intro g i h _; exact h

/-- C42. Recent weather is stored only in groups of recent weather, which store nothing else. -/
theorem C42_recent {g : WeatherGroup} (h : WeatherBuilt g) :
    ∀ w ∈ g.w, w.qualifier = .RECENT ↔ g.t = .RECENT := by
  refine weatherBuilt_induct (P := fun g => ∀ w ∈ g.w, w.qualifier = .RECENT ↔ g.t = .RECENT) ?_ ?_ ?_ ?_ ?_ h
  · simp
  · intro q d ws w hw
    rw [List.mem_singleton.mp hw, made_qualifier]
    by_cases hq : q = .RECENT <;> simp [hq]
  · intro es w hw
    obtain ⟨e, _, rfl⟩ := List.mem_map.mp hw
    simp only [stored, pack_qualifier]
    decide
  · intro g q d ws ih _ ht w hw
    rcases List.mem_append.mp hw with hw | hw
    · exact ih w hw
    · rw [List.mem_singleton.mp hw, made_qualifier]
      simp only [ht]
      by_cases hq : q = .RECENT <;> simp [hq]
  · intro g i h _; exact h

/-! ### Cases -/

/-- `RAB05E30SNB1920` in a report of 18 hours. -/
example : ∃ g, parseWeatherEvent c!"RAB05E30SNB1920" { hourValue := 18 } = .ok (some g) ∧
    g.w = [stored ⟨.NONE, [.RAIN], false, 18, 5⟩, stored ⟨.NONE, [.RAIN], true, 18, 30⟩,
      stored ⟨.NONE, [.SNOW], false, 19, 20⟩] := by
  have rain : AllowedWeather false .NONE .NONE [.RAIN] :=
    .precipitation rfl ⟨by decide, by decide, by decide, by decide, by decide, by decide, by decide⟩
  have snow : AllowedWeather false .NONE .NONE [.SNOW] :=
    .precipitation rfl ⟨by decide, by decide, by decide, by decide, by decide, by decide, by decide⟩
  refine ⟨_, (C42_events _ _ _).mpr ⟨[⟨some (.NONE, [.RAIN]), false, none, 5⟩, ⟨none, true, none, 30⟩,
    ⟨some (.NONE, [.SNOW]), false, some 19, 20⟩], _, by simp, ?_, by decide, rfl, rfl⟩, rfl⟩
  intro f hf
  simp only [List.mem_cons, List.not_mem_nil, or_false] at hf
  rcases hf with rfl | rfl | rfl
  · exact ⟨by simpa using rain, by simp, by decide⟩
  · exact ⟨by simp, by simp, by decide⟩
  · exact ⟨by simpa using snow, by simp, by decide⟩

/-- `-RA` then `BR`. -/
example : WeatherGroup.append { t := .CURRENT, w := [made .LIGHT .NONE [.RAIN]] } c!"BR" .METAR =
    ({ t := .CURRENT, w := [made .LIGHT .NONE [.RAIN], made .NONE .NONE [.MIST]] }, .APPENDED) :=
  (C42_append _ _ _ _ rfl).mpr ⟨by simp, .NONE, .NONE, [.MIST],
    ⟨by decide, Or.inr ⟨Or.inl rfl, .plain (.single _ (by decide))⟩⟩, rfl, rfl⟩

end Metaf.Props
