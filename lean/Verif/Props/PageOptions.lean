import Verif.Model.PageOptions
import Verif.Proofs.Util
import Mathlib.Tactic.NormNum

/-!
C134: the units and the distance chosen on the page with the summaries
(`/repo/examples/shellfiles/summary_shell.html`) are kept when one of them is changed.
-/

set_option linter.unusedSectionVars false

namespace Metaf.Props

open Metaf Metaf.PageOptions
open Metaf.ExplainPage (JsText decodeURIComponent decode)

/-! ### Specification -/

/-- What is chosen on the page. -/
structure Setting (N : Type) where
  imperial : Bool
  distance : N
  deriving DecidableEq

/-- The distances which are offered, in miles and in kilometres. -/
def offered : List (Nat × Nat) := [(3, 5), (10, 16), (30, 48), (75, 120), (140, 225), (320, 515), (500, 804)]

/-- What the two links to units say. -/
def unitCaptions : List Str := [c!"Metric<br>(&deg;C, km, km/h, hPa)", c!"Imperial<br>(&deg;F, miles, mph, &quot;Hg)"]

/-- A link on the page: to one of the units or to one of the distances. -/
inductive Link
  | metric
  | imperial
  | distance (i : Fin 7)
  deriving DecidableEq

/-- What a link changes. -/
def Link.chosen {N : Type} (num : Numbers N) (s : Setting N) : Link → Setting N
  | .metric => { s with imperial := false }
  | .imperial => { s with imperial := true }
  | .distance i => { s with distance := num.ofNat (offered[i.val]'(by show i.val < 7; omega)).1 }

/-- The address after `?` to which a link of the page leads, if the options are shown. -/
def follow {N : Type} [DecidableEq N] (num : Numbers N) (search : JsText) (l : Link) : Option JsText :=
  (updateOptions num search).bind fun o =>
    match l with
    | .metric => o.1[0]?.map (·.href)
    | .imperial => o.1[1]?.map (·.href)
    | .distance i => o.2[i.val]?.map (·.href)

/-- The page at this address requests data for this distance and shows them in these units. -/
def Uses {N : Type} [DecidableEq N] (num : Numbers N) (search : JsText) (s : Setting N) : Prop :=
  requestDistance num search = some s.distance ∧ dataImperial search = some s.imperial

/-- The addresses a visitor reaches by following links. -/
def browse {N : Type} [DecidableEq N] (num : Numbers N) : JsText → List Link → Option JsText
  | search, [] => some search
  | search, l :: ls => (follow num search l).bind fun next => browse num next ls

/-- Parameters as they are written in an address: names and values joined by `=`, the items joined by `&`. -/
def parameters : List (JsText × JsText) → JsText
  | [] => []
  | [p] => p.1 ++ 61 :: p.2
  | p :: q :: ps => p.1 ++ 61 :: p.2 ++ 38 :: parameters (q :: ps)

/-! ### Helper lemmas -/

section helpers

theorem split_single {sep : Nat} : ∀ {s : JsText}, sep ∉ s → PageOptions.split sep s = [s]
  | [], _ => rfl
  | u :: s, h => by
    have hu : u ≠ sep := fun e => h (by simp [e])
    rw [PageOptions.split, if_neg hu, split_single (fun hm => h (List.mem_cons_of_mem _ hm))]

theorem split_at {sep : Nat} : ∀ {a : JsText} (b : JsText), sep ∉ a →
    PageOptions.split sep (a ++ sep :: b) = a :: PageOptions.split sep b
  | [], b, _ => by simp [PageOptions.split]
  | u :: a, b, h => by
    have hu : u ≠ sep := fun e => h (by simp [e])
    rw [List.cons_append, PageOptions.split, if_neg hu, split_at b (fun hm => h (List.mem_cons_of_mem _ hm))]

theorem decode_plain : ∀ (s : JsText) (k : Nat), 37 ∉ s → s.length ≤ k → decode k s = some s
  | [], k, _, _ => by cases k <;> rfl
  | u :: s, k, h, hk => by
    have hu : u ≠ 37 := fun e => h (by simp [e])
    obtain ⟨j, rfl⟩ : ∃ j, k = j + 1 := ⟨k - 1, by simp at hk; omega⟩
    unfold decode
    rw [if_pos hu, decode_plain s j (fun hm => h (List.mem_cons_of_mem _ hm)) (by simpa using hk)]
    rfl

theorem decodeURI_plain {s : JsText} (h : 37 ∉ s) : decodeURIComponent s = some s :=
  decode_plain s _ h (Nat.le_refl _)

/-- A text without the signs of an address. -/
def NoSigns (t : JsText) : Prop := 37 ∉ t ∧ 38 ∉ t ∧ 61 ∉ t

theorem text_plain {N : Type} {num : Numbers N} (h : num.Lawful) (n : N) : NoSigns (num.text n) := by
  have hc := h.text_chars n
  refine ⟨fun hm => ?_, fun hm => ?_, fun hm => ?_⟩ <;>
    · rcases hc _ hm with ⟨h1, h2⟩ | hm
      · omega
      · revert hm
        decide

/-- The units at the end of an address. -/
def unitSuffix (imperial : Bool) : JsText := if imperial then js c!"&unit=imperial" else []

theorem split_and {t : JsText} (ht : NoSigns t) (imperial : Bool) :
    PageOptions.split 38 ((js c!"?distance=" ++ t ++ unitSuffix imperial).drop 1) =
      (js c!"distance=" ++ t) :: if imperial then [js c!"unit=imperial"] else [] := by
  have hn : 38 ∉ js c!"distance=" ++ t := by
    rw [List.mem_append, not_or]
    exact ⟨by decide, ht.2.1⟩
  cases imperial
  · have e : (js c!"?distance=" ++ t ++ unitSuffix false).drop 1 = js c!"distance=" ++ t := by
      show js c!"distance=" ++ t ++ [] = _
      rw [List.append_nil]
    rw [e, split_single hn]
    rfl
  · have e : (js c!"?distance=" ++ t ++ unitSuffix true).drop 1 =
        (js c!"distance=" ++ t) ++ 38 :: js c!"unit=imperial" := rfl
    rw [e, split_at _ hn]
    rfl

theorem split_item {t : JsText} (ht : NoSigns t) :
    PageOptions.split 61 (js c!"distance=" ++ t) = [js c!"distance", t] := by
  have e : js c!"distance=" ++ t = js c!"distance" ++ 61 :: t := rfl
  rw [e, split_at t (by decide), split_single ht.2.2]

theorem find_distance {t : JsText} (ht : NoSigns t) (imperial : Bool) :
    findGetParameter (js c!"?distance=" ++ t ++ unitSuffix imperial) (js c!"distance") = some (some t) := by
  unfold findGetParameter
  rw [split_and ht]
  have hd : decodeURIComponent (([js c!"distance", t][1]?).getD (js c!"undefined")) = some t :=
    decodeURI_plain ht.1
  rw [findIn]
  simp only [split_item ht, List.head?_cons, if_true]
  rw [hd]
  cases imperial
  · rfl
  · have hu : (PageOptions.split 61 (js c!"unit=imperial")).head? ≠ some (js c!"distance") := by decide
    simp only [if_true, findIn, hu, if_false]

theorem find_unit {t : JsText} (ht : NoSigns t) (imperial : Bool) :
    findGetParameter (js c!"?distance=" ++ t ++ unitSuffix imperial) (js c!"unit") =
      some (if imperial then some (js c!"imperial") else none) := by
  unfold findGetParameter
  rw [split_and ht]
  have hne : ¬ (some (js c!"distance") = some (js c!"unit")) := by decide
  rw [findIn]
  simp only [split_item ht, List.head?_cons, hne, if_false]
  cases imperial
  · rfl
  · decide +kernel

variable {N : Type} [DecidableEq N] {num : Numbers N}

theorem ofNat_inj (h : num.Lawful) {j k : Nat} (hj : j < 1000) (hk : k < 1000) (e : num.ofNat j = num.ofNat k) :
    j = k := by
  have h1 := h.text_ofNat j hj
  rw [e, h.text_ofNat k hk] at h1
  have : ∀ j < 1000, ((Nat.toDigits 10 j).map Char.toNat).foldl (fun a d => a * 10 + (d - 48)) 0 = j := by
    decide +kernel
  rw [← this j hj, ← this k hk, h1]

/-- The address of a setting is read as this setting. -/
theorem uses_address (h : num.Lawful) {s : Setting N} (h0 : s.distance ≠ num.ofNat 0) :
    Uses num (js c!"?distance=" ++ num.text s.distance ++ unitSuffix s.imperial) s := by
  have ht := text_plain h s.distance
  constructor
  · unfold requestDistance
    rw [find_distance ht]
    simp only [Option.map_some, h.number_text, if_neg h0]
  · unfold dataImperial
    rw [find_unit ht]
    cases s.imperial <;> rfl

theorem shown_of_uses {search : JsText} {s : Setting N} (h : Uses num search s) :
    updateOptions num search =
      some (unitOptions num s.imperial s.distance, distanceOptions num s.imperial s.distance) := by
  obtain ⟨hd, hu⟩ := h
  unfold dataImperial at hu
  obtain ⟨u, hu, hi⟩ := Option.map_eq_some_iff.mp hu
  have hd' : optionsDistance num search = some s.distance := hd
  unfold updateOptions
  simp only [hu, hd', hi]

theorem uses_of_shown {search : JsText} {o : List Choice × List Choice} (h : updateOptions num search = some o) :
    ∃ s : Setting N, Uses num search s := by
  unfold updateOptions at h
  cases hu : findGetParameter search (js c!"unit") with
  | none => simp [hu] at h
  | some u =>
    cases hd : optionsDistance num search with
    | none => simp [hu, hd] at h
    | some d =>
      refine ⟨⟨decide (u = some (js c!"imperial")), d⟩, hd, ?_⟩
      unfold dataImperial
      rw [hu]
      rfl

theorem distance_ne_zero (h : num.Lawful) {search : JsText} {s : Setting N} (hu : Uses num search s) :
    s.distance ≠ num.ofNat 0 := by
  have h30 : num.ofNat 30 ≠ num.ofNat 0 := fun e => absurd (ofNat_inj h (by decide) (by decide) e) (by decide)
  obtain ⟨hd, -⟩ := hu
  unfold requestDistance at hd
  obtain ⟨p, -, hp⟩ := Option.map_eq_some_iff.mp hd
  rw [← hp]
  split
  · exact h30
  · split
    · exact h30
    · assumption

theorem offered_ne_zero (h : num.Lawful) (i : Fin 7) :
    num.ofNat (offered[i.val]'(by show i.val < 7; omega)).1 ≠ num.ofNat 0 := by
  have hi : ∀ i : Fin 7, (offered[i.val]'(by show i.val < 7; omega)).1 < 1000 ∧
      (offered[i.val]'(by show i.val < 7; omega)).1 ≠ 0 := by decide
  exact fun e => (hi i).2 (ofNat_inj h (hi i).1 (by decide) e)

/-- Where a link leads. -/
theorem follow_eq (h : num.Lawful) {search : JsText} {s : Setting N} (hu : Uses num search s) (l : Link) :
    follow num search l = some (js c!"?distance=" ++ num.text (l.chosen num s).distance ++
      unitSuffix (l.chosen num s).imperial) := by
  unfold follow
  rw [shown_of_uses hu, Option.bind_some]
  cases l with
  | metric =>
    show some (js c!"?distance=" ++ num.text s.distance) = some (js c!"?distance=" ++ num.text s.distance ++ [])
    rw [List.append_nil]
  | imperial => rfl
  | distance i =>
    have ht : ∀ k < 1000, js c!"?distance=" ++ num.text (num.ofNat k) =
        js c!"?distance=" ++ (Nat.toDigits 10 k).map Char.toNat := fun k hk => by rw [h.text_ofNat k hk]
    have h7 : ∀ i : Fin 7, (offered[i.val]'(by show i.val < 7; omega)).1 < 1000 := by decide
    show _ = some (js c!"?distance=" ++ num.text (num.ofNat _) ++ _)
    rw [ht _ (h7 i)]
    match i with
    | 0 => rfl
    | 1 => rfl
    | 2 => rfl
    | 3 => rfl
    | 4 => rfl
    | 5 => rfl
    | 6 => rfl

end helpers

/-! ### C134 -/

variable {N : Type} [DecidableEq N] {num : Numbers N}

/-- C134. The options are shown exactly if the address can be read, and then they are marked as the data are
requested and shown: one of the units is marked, the one in use, and of the distances the one in use, if it is
offered; the captions give the miles and the kilometres. -/
theorem C134_marked (search : JsText) :
    (updateOptions num search = none ↔ ∀ s : Setting N, ¬ Uses num search s) ∧
    ∀ units distances, updateOptions num search = some (units, distances) →
      ∃ s : Setting N, Uses num search s ∧
        units.map (·.marked) = [!s.imperial, s.imperial] ∧ units.map (·.caption) = unitCaptions ∧
        distances.map (·.marked) = offered.map (fun d => decide (s.distance = num.ofNat d.1)) ∧
        distances.map (·.caption) = offered.map fun d =>
          Nat.toDigits 10 d.1 ++ c!" miles / " ++ Nat.toDigits 10 d.2 ++ c!" km" := by
  refine ⟨⟨fun hn s hs => ?_, fun hn => ?_⟩, fun units distances hs => ?_⟩
  · rw [shown_of_uses hs] at hn
    cases hn
  · cases ho : updateOptions num search with
    | none => rfl
    | some o =>
      obtain ⟨s, hs⟩ := uses_of_shown ho
      exact absurd hs (hn s)
  · obtain ⟨s, hu⟩ := uses_of_shown hs
    rw [shown_of_uses hu] at hs
    obtain ⟨rfl, rfl⟩ := Prod.mk.inj (Option.some.inj hs)
    refine ⟨s, hu, rfl, rfl, rfl, ?_⟩
    simp only [distanceOptions, offered, List.map_cons, List.map_nil]
    decide +kernel

/-- C134. A link of the page changes what it says and nothing else: following a link to units keeps the distance,
also one which is not offered, and following a link to a distance keeps the units. -/
theorem C134_link (h : num.Lawful) (search : JsText) (s : Setting N) (hu : Uses num search s) (l : Link) :
    ∃ next, follow num search l = some next ∧ Uses num next (l.chosen num s) := by
  refine ⟨_, follow_eq h hu l, uses_address h ?_⟩
  cases l with
  | metric => exact distance_ne_zero (s := s) h hu
  | imperial => exact distance_ne_zero (s := s) h hu
  | distance i => exact offered_ne_zero h i

/-- C134. However many links are followed from whatever address, the last choice of each kind is in use. -/
theorem C134_history (h : num.Lawful) : ∀ (ls : List Link) (search : JsText) (s : Setting N), Uses num search s →
    ∃ last, browse num search ls = some last ∧ Uses num last (ls.foldl (Link.chosen num) s)
  | [], search, s, hu => ⟨search, rfl, hu⟩
  | l :: ls, search, s, hu => by
    obtain ⟨next, hn, hu'⟩ := C134_link h search s hu l
    obtain ⟨last, hl, hu''⟩ := C134_history h ls next _ hu'
    exact ⟨last, by rw [browse, hn]; exact hl, hu''⟩

/-- C134. Without parameters the distance is 30 miles and the units are metric. -/
theorem C134_default : Uses num [] { imperial := false, distance := num.ofNat 30 } := by
  have hd : findGetParameter [] (js c!"distance") = some none := by decide +kernel
  have hu : findGetParameter [] (js c!"unit") = some none := by decide +kernel
  constructor
  · unfold requestDistance
    rw [hd]
    simp only [Option.map_some, if_true]
  · unfold dataImperial
    rw [hu]
    rfl

/-- C134. From the page without parameters on, one of the units and one of the distances are marked, whichever links
are followed. -/
theorem C134_one_marked (h : num.Lawful) (ls : List Link) :
    ∃ last units distances, browse num [] ls = some last ∧
      updateOptions num last = some (units, distances) ∧
      (units.filter (·.marked)).length = 1 ∧ (distances.filter (·.marked)).length = 1 := by
  obtain ⟨last, hl, hu⟩ := C134_history h ls [] _ C134_default
  refine ⟨last, _, _, hl, shown_of_uses hu, ?_, ?_⟩
  · unfold unitOptions
    cases (ls.foldl (Link.chosen num) { imperial := false, distance := num.ofNat 30 }).imperial <;> rfl
  · have hd : ∀ (ls : List Link) (s : Setting N), (∃ d ∈ offered, s.distance = num.ofNat d.1) →
        ∃ d ∈ offered, (ls.foldl (Link.chosen num) s).distance = num.ofNat d.1 := by
      intro ls
      induction ls with
      | nil => exact fun s hs => hs
      | cons l ls ih =>
        intro s hs
        refine ih _ ?_
        cases l with
        | metric => exact hs
        | imperial => exact hs
        | distance i => exact ⟨_, List.getElem_mem _, rfl⟩
    obtain ⟨d, hd, e⟩ := hd ls { imperial := false, distance := num.ofNat 30 } ⟨(30, 48), by decide, rfl⟩
    have hi : ∀ j k : Nat, j < 1000 → k < 1000 → decide (num.ofNat j = num.ofNat k) = decide (j = k) := by
      intro j k hj hk
      by_cases hjk : j = k
      · simp [hjk]
      · simp only [hjk, decide_false, decide_eq_false_iff_not]
        exact fun e => hjk (ofNat_inj h hj hk e)
    have hlt : d.1 < 1000 := by
      have : ∀ d ∈ offered, d.1 < 1000 := by decide
      exact this d hd
    rw [e]
    have hcount : ∀ cs : List Choice, (cs.filter (·.marked)).length = ((cs.map (·.marked)).filter id).length := by
      intro cs
      induction cs with
      | nil => rfl
      | cons c cs ih => cases hc : c.marked <;> simp [hc, ih]
    rw [hcount]
    have e2 : (distanceOptions num (ls.foldl (Link.chosen num)
        { imperial := false, distance := num.ofNat 30 }).imperial (num.ofNat d.1)).map (·.marked) =
        offered.map fun x => decide (d.1 = x.1) := by
      simp only [distanceOptions, offered, List.map_cons, List.map_nil, hi d.1 _ hlt (by decide : 3 < 1000),
        hi d.1 _ hlt (by decide : 10 < 1000), hi d.1 _ hlt (by decide : 30 < 1000),
        hi d.1 _ hlt (by decide : 75 < 1000), hi d.1 _ hlt (by decide : 140 < 1000),
        hi d.1 _ hlt (by decide : 320 < 1000), hi d.1 _ hlt (by decide : 500 < 1000)]
    rw [e2]
    have : ∀ d ∈ offered, ((offered.map fun x => decide (d.1 = x.1)).filter id).length = 1 := by decide
    exact this d hd

/-- C134. The kilometres in the captions differ from the miles by less than one kilometre. -/
theorem C134_kilometres : ∀ d ∈ offered, |(d.2 : Rat) - d.1 * (1609344 / 1000000)| < 1 := by
  intro d hd
  simp only [offered, List.mem_cons, List.not_mem_nil, or_false] at hd
  rcases hd with rfl | rfl | rfl | rfl | rfl | rfl | rfl <;> norm_num [abs_lt]

theorem split_items : ∀ (ps : List (JsText × JsText)) (p : JsText × JsText),
    (∀ q ∈ p :: ps, 38 ∉ q.1 ∧ 38 ∉ q.2 ∧ 61 ∉ q.1 ∧ 61 ∉ q.2) →
    PageOptions.split 38 (parameters (p :: ps)) = (p :: ps).map fun q => q.1 ++ 61 :: q.2
  | [], p, h => by
    have hp := h p (by simp)
    refine split_single ?_
    simp only [parameters, List.mem_append, List.mem_cons, not_or]
    exact ⟨hp.1, by decide, hp.2.1⟩
  | q :: ps, p, h => by
    have hp := h p (by simp)
    have e : parameters (p :: q :: ps) = (p.1 ++ 61 :: p.2) ++ 38 :: parameters (q :: ps) := by
      simp [parameters]
    rw [e, split_at _ ?_, split_items ps q (fun x hx => h x (List.mem_cons_of_mem _ hx))]
    · rfl
    · simp only [List.mem_append, List.mem_cons, not_or]
      exact ⟨hp.1, by decide, hp.2.1⟩

theorem findIn_items (name : JsText) : ∀ (ps : List (JsText × JsText)) (r : Option JsText),
    (∀ q ∈ ps, 61 ∉ q.1 ∧ 61 ∉ q.2) →
    findIn name (ps.map fun q => q.1 ++ 61 :: q.2) r =
      if (∃ q ∈ ps, q.1 = name ∧ decodeURIComponent q.2 = none) then none
      else some (((ps.filter (·.1 = name)).getLast?.bind fun q => decodeURIComponent q.2).or r)
  | [], r, _ => by simp [findIn]
  | p :: ps, r, h => by
    have hp := h p (by simp)
    have ih := fun r => findIn_items name ps r (fun x hx => h x (List.mem_cons_of_mem _ hx))
    have hs : PageOptions.split 61 (p.1 ++ 61 :: p.2) = [p.1, p.2] := by
      rw [split_at _ hp.1, split_single hp.2]
    rw [List.map_cons, findIn]
    simp only [hs, List.head?_cons, Option.some.injEq, List.getElem?_cons_succ, List.getElem?_cons_zero,
      Option.getD_some]
    by_cases hn : p.1 = name
    · rw [if_pos hn]
      cases hd : decodeURIComponent p.2 with
      | none =>
        rw [if_pos ⟨p, by simp, hn, hd⟩]
      | some v =>
        simp only [ih]
        have hiff : (∃ q ∈ p :: ps, q.1 = name ∧ decodeURIComponent q.2 = none) ↔
            ∃ q ∈ ps, q.1 = name ∧ decodeURIComponent q.2 = none := by
          constructor
          · rintro ⟨q, hq, h1, h2⟩
            rcases List.mem_cons.mp hq with rfl | hq
            · rw [hd] at h2
              cases h2
            · exact ⟨q, hq, h1, h2⟩
          · rintro ⟨q, hq, h1, h2⟩
            exact ⟨q, List.mem_cons_of_mem _ hq, h1, h2⟩
        simp only [hiff]
        split
        · rfl
        · rename_i hno
          rw [List.filter_cons_of_pos (by simpa using hn)]
          cases hl : ps.filter (·.1 = name) with
          | nil => simp [hd]
          | cons q qs =>
            rw [List.getLast?_cons_cons]
            obtain ⟨z, hz⟩ : ∃ z, (q :: qs).getLast? = some z := ⟨_, List.getLast?_eq_some_getLast (by simp)⟩
            have hzm : z ∈ ps.filter (·.1 = name) := by
              rw [hl]
              exact List.mem_of_getLast? hz
            obtain ⟨hz1, hz2⟩ := List.mem_filter.mp hzm
            rw [hz, Option.bind_some]
            cases hdz : decodeURIComponent z.2 with
            | none => exact absurd ⟨z, hz1, by simpa using hz2, hdz⟩ hno
            | some w => rfl
    · rw [if_neg hn, ih]
      have hiff : (∃ q ∈ p :: ps, q.1 = name ∧ decodeURIComponent q.2 = none) ↔
          ∃ q ∈ ps, q.1 = name ∧ decodeURIComponent q.2 = none := by
        constructor
        · rintro ⟨q, hq, h1, h2⟩
          rcases List.mem_cons.mp hq with rfl | hq
          · exact absurd h1 hn
          · exact ⟨q, hq, h1, h2⟩
        · rintro ⟨q, hq, h1, h2⟩
          exact ⟨q, List.mem_cons_of_mem _ hq, h1, h2⟩
      simp only [hiff]
      rw [List.filter_cons_of_neg (by simpa using hn)]

/-- C134. Of the parameters in an address, in whatever order they are written and whichever others there are, the
last one with the name is taken and decoded; if one with the name cannot be decoded the script ends with an
exception. -/
theorem C134_reads (ps : List (JsText × JsText)) (hne : ps ≠ [])
    (h : ∀ q ∈ ps, 38 ∉ q.1 ∧ 38 ∉ q.2 ∧ 61 ∉ q.1 ∧ 61 ∉ q.2) (name : JsText) :
    findGetParameter (63 :: parameters ps) name =
      if (∃ q ∈ ps, q.1 = name ∧ decodeURIComponent q.2 = none) then none
      else some ((ps.filter (·.1 = name)).getLast?.bind fun q => decodeURIComponent q.2) := by
  cases ps with
  | nil => exact absurd rfl hne
  | cons p ps =>
    unfold findGetParameter
    rw [List.drop_one, List.tail_cons, split_items ps p h, findIn_items name _ _ (fun q hq => (h q hq).2.2)]
    simp

/-- C134. If units or distance cannot be decoded neither the options nor the data are shown. -/
theorem C134_unreadable (ps : List (JsText × JsText))
    (h : ∀ q ∈ ps, 38 ∉ q.1 ∧ 38 ∉ q.2 ∧ 61 ∉ q.1 ∧ 61 ∉ q.2) (q : JsText × JsText) (hq : q ∈ ps)
    (hn : q.1 = js c!"unit" ∨ q.1 = js c!"distance") (hd : decodeURIComponent q.2 = none) :
    updateOptions num (63 :: parameters ps) = none ∧ ∀ s : Setting N, ¬ Uses num (63 :: parameters ps) s := by
  have hnone : updateOptions num (63 :: parameters ps) = none := by
    have hr := C134_reads ps (List.ne_nil_of_mem hq) h q.1
    rw [if_pos ⟨q, hq, rfl, hd⟩] at hr
    unfold updateOptions optionsDistance
    rcases hn with hn | hn
    · rw [hn] at hr
      simp [hr]
    · rw [hn] at hr
      rw [hr]
      cases findGetParameter (63 :: parameters ps) (js c!"unit") <;> rfl
  exact ⟨hnone, (C134_marked _).1.mp hnone⟩

/-- `?x=1&unit=%`. -/
example : 63 :: parameters [(js c!"x", js c!"1"), (js c!"unit", js c!"%")] = js c!"?x=1&unit=%" ∧
    decodeURIComponent (js c!"%") = none := by decide +kernel

/-! ### Cases -/

/-- Numbers below 1000, read and written in decimal digits. -/
def decimals : Numbers (Fin 1000) where
  number t := if t = [] ∨ ¬ t.all (fun u => 48 ≤ u && u ≤ 57) then none
    else some (Fin.ofNat 1000 (t.foldl (fun a d => a * 10 + (d - 48)) 0))
  text n := (Nat.toDigits 10 n.val).map Char.toNat
  ofNat n := Fin.ofNat 1000 n

/-- The laws can be met. -/
theorem decimals_lawful : decimals.Lawful where
  number_text := by decide +kernel
  text_chars := by decide +kernel
  text_ofNat := by decide +kernel

/-- A distance which is not offered and imperial units, as somebody may have written in the address. -/
example : Uses decimals (js c!"?unit=imperial&distance=42") { imperial := true, distance := 42 } := by
  unfold Uses
  decide +kernel

/-- From there to metric units and back: the distance of 42 miles is kept. -/
example : browse decimals (js c!"?unit=imperial&distance=42") [.metric, .imperial] =
    some (js c!"?distance=42&unit=imperial") := by decide +kernel

end Metaf.Props
