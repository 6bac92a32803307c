import Verif.Spec.PageStations
import Verif.Props.PageWidget

/-!
C129: the stations of the page with the summaries.
-/

namespace Metaf.Props

open Metaf Metaf.Spec Metaf.Page

/-! ### Children of elements -/

theorem child_text (name : Str) (e : Page.Element) : child name e = childText name e := by
  induction e with
  | nil => rfl
  | cons c cs ih =>
    unfold child
    rw [ih]
    unfold childText
    by_cases hc : c.1 = name
    · rw [List.filter_cons_of_pos (by simpa using hc), List.getLast?_cons, if_pos hc]
      generalize (cs.filter fun c => decide (c.1 = name)).getLast? = o
      cases o <;> rfl
    · rw [List.filter_cons_of_neg (by simpa using hc), if_neg hc]
      generalize (cs.filter fun c => decide (c.1 = name)).getLast? = o
      cases o <;> rfl

/-! ### Maps -/

/-- The keys of a map. -/
def keysOf (m : Stations) : List (Option Str) := m.map Prod.fst

theorem keys_set (m : Stations) (id : Option Str) (s : Station) :
    keysOf (m.set id s) = if id ∈ keysOf m then keysOf m else keysOf m ++ [id] := by
  induction m with
  | nil => rfl
  | cons e es ih =>
    unfold Stations.set
    by_cases he : e.1 = id
    · rw [if_pos he, if_pos (by unfold keysOf; rw [List.map_cons, he]; exact List.mem_cons_self ..)]
      unfold keysOf
      rw [List.map_cons, List.map_cons, he]
    · rw [if_neg he]
      have e1 : keysOf (e :: Stations.set es id s) = e.1 :: keysOf (Stations.set es id s) := rfl
      have e2 : keysOf (e :: es) = e.1 :: keysOf es := rfl
      rw [e1, e2, ih]
      have hm : id ∈ e.1 :: keysOf es ↔ id ∈ keysOf es := by
        rw [List.mem_cons]
        exact ⟨fun h => h.resolve_left (fun h => he h.symm), Or.inr⟩
      by_cases h : id ∈ keysOf es
      · rw [if_pos h, if_pos (hm.mpr h)]
      · rw [if_neg h, if_neg (fun h' => h (hm.mp h')), List.cons_append]

theorem get_set (m : Stations) (id k : Option Str) (s : Station) :
    (m.set id s).get k = if k = id then some s else m.get k := by
  induction m with
  | nil =>
    unfold Stations.set Stations.get Stations.get
    by_cases h : k = id
    · rw [if_pos h, if_pos h.symm]
    · rw [if_neg h, if_neg (fun h' => h h'.symm)]
  | cons e es ih =>
    unfold Stations.set
    by_cases he : e.1 = id
    · rw [if_pos he]
      unfold Stations.get
      by_cases h : k = id
      · rw [if_pos h, if_pos h.symm]
      · rw [if_neg h, if_neg (fun h' => h h'.symm), he, if_neg (fun h' => h h'.symm)]
    · rw [if_neg he]
      unfold Stations.get
      rw [ih]
      by_cases h : e.1 = k
      · rw [if_pos h, if_pos h, if_neg (fun h' => he (h.trans h'))]
      · rw [if_neg h, if_neg h]

theorem get_mem {m : Stations} {k : Option Str} : (m.get k).isSome = true ↔ k ∈ keysOf m := by
  induction m with
  | nil =>
    show (false = true) ↔ k ∈ []
    simp
  | cons e es ih =>
    unfold Stations.get
    have e2 : keysOf (e :: es) = e.1 :: keysOf es := rfl
    rw [e2, List.mem_cons]
    by_cases h : e.1 = k
    · rw [if_pos h]; exact ⟨fun _ => Or.inl h.symm, fun _ => rfl⟩
    · rw [if_neg h, ih]
      exact ⟨Or.inr, fun h' => h'.resolve_left (fun h' => h h'.symm)⟩

theorem get_of_mem {m : Stations} (hn : (keysOf m).Nodup) {k : Option Str} {s : Station} (h : (k, s) ∈ m) :
    m.get k = some s := by
  induction m with
  | nil => exact nomatch h
  | cons e es ih =>
    have e2 : keysOf (e :: es) = e.1 :: keysOf es := rfl
    rw [e2, List.nodup_cons] at hn
    unfold Stations.get
    rcases List.mem_cons.mp h with h | h
    · rw [← h, if_pos rfl]
    · rw [if_neg, ih hn.2 h]
      intro he
      exact hn.1 (he ▸ List.mem_map_of_mem (f := Prod.fst) h)

/-! ### Order -/

theorem firstOrder_nil : FirstOrder [] [] := ⟨List.Pairwise.nil, fun _ => Iff.rfl⟩

theorem firstOrder_nodup {names keys : List (Option Str)} (h : FirstOrder names keys) : keys.Nodup :=
  h.1.imp fun hab e => by rw [e] at hab; exact absurd hab (Nat.lt_irrefl _)

theorem firstOrder_snoc {names keys : List (Option Str)} (h : FirstOrder names keys) (k : Option Str) :
    FirstOrder (names ++ [k]) (if k ∈ keys then keys else keys ++ [k]) := by
  have hi : ∀ a ∈ keys, (names ++ [k]).idxOf a = names.idxOf a := fun a ha =>
    List.idxOf_append_of_mem ((h.2 a).mp ha)
  have hp : keys.Pairwise (fun a b => (names ++ [k]).idxOf a < (names ++ [k]).idxOf b) := by
    refine h.1.imp_of_mem ?_
    intro a b ha hb hab
    rw [hi a ha, hi b hb]
    exact hab
  split
  · rename_i hk
    refine ⟨hp, fun x => ?_⟩
    rw [List.mem_append, List.mem_singleton, h.2 x]
    exact ⟨Or.inl, fun hx => hx.elim id fun hx => hx ▸ (h.2 k).mp hk⟩
  · rename_i hk
    refine ⟨List.pairwise_append.mpr ⟨hp, List.pairwise_singleton _ _, ?_⟩, fun x => ?_⟩
    · intro a ha b hb
      rw [List.mem_singleton.mp hb, hi a ha]
      have hk' : k ∉ names := fun hk' => hk ((h.2 k).mpr hk')
      rw [List.idxOf_append_of_notMem hk']
      have := List.idxOf_lt_length_of_mem ((h.2 a).mp ha)
      omega
    · rw [List.mem_append, List.mem_append, h.2 x]

theorem keys_metars (distance : Distances) (es : List Page.Element) {names : List (Option Str)} {m : Stations}
    (h : FirstOrder names (keysOf m)) :
    FirstOrder (names ++ es.map stationOf) (keysOf (addMetars distance es m)) := by
  induction es generalizing names m with
  | nil => rw [List.map_nil, List.append_nil]; exact h
  | cons e es ih =>
    unfold addMetars
    have hid : (getReportFromNodeList e).id = stationOf e := child_text _ e
    simp only [hid]
    have h' := firstOrder_snoc h (stationOf e)
    rw [← keys_set m (stationOf e) ⟨some [], (getReportFromNodeList e).lat, (getReportFromNodeList e).lon,
      distance (getReportFromNodeList e).lat (getReportFromNodeList e).lon, (getReportFromNodeList e).report,
      some []⟩] at h'
    have := ih h'
    rw [List.append_assoc] at this
    exact this

theorem keys_tafs (distance : Distances) (es : List Page.Element) {names : List (Option Str)} {m : Stations}
    (h : FirstOrder names (keysOf m)) :
    FirstOrder (names ++ es.map stationOf) (keysOf (addTafs distance es m)) := by
  induction es generalizing names m with
  | nil => rw [List.map_nil, List.append_nil]; exact h
  | cons e es ih =>
    unfold addTafs
    have hid : (getReportFromNodeList e).id = stationOf e := child_text _ e
    simp only [hid]
    have key : ∀ s, FirstOrder (names ++ (e :: es).map stationOf) (keysOf (addTafs distance es (m.set (stationOf e) s))) := by
      intro s
      have h' := firstOrder_snoc h (stationOf e)
      rw [← keys_set m (stationOf e) s] at h'
      have := ih h'
      rw [List.append_assoc] at this
      exact this
    split
    · exact key _
    · exact key _

theorem keys_names (es : List Page.Element) (m : Stations) : keysOf (addStationNames es m) = keysOf m := by
  induction es generalizing m with
  | nil => rfl
  | cons e es ih =>
    unfold addStationNames
    rw [ih]
    split
    · rename_i s hs
      rw [keys_set, if_pos]
      exact get_mem.mp (by rw [hs]; rfl)
    · rfl

/-! ### Values -/

theorem about_cons (id : Option Str) (e : Page.Element) (es : List Page.Element) :
    about id (e :: es) = if stationOf e = id then e :: about id es else about id es := by
  unfold about
  rw [List.filter_cons]
  by_cases h : stationOf e = id
  · rw [if_pos h, if_pos (decide_eq_true h)]
  · rw [if_neg h, if_neg (by simpa using h)]

/-- The station as a METAR gives it. -/
def metarStation (distance : Distances) (e : Page.Element) : Station :=
  { name := some [], lat := childText c!"latitude" e, lon := childText c!"longitude" e,
    distKm := distance (childText c!"latitude" e) (childText c!"longitude" e),
    metar := childText c!"raw_text" e, taf := some [] }

/-- The station as a TAF gives it. -/
def tafStation (distance : Distances) (e : Page.Element) : Station :=
  { name := some [], lat := childText c!"latitude" e, lon := childText c!"longitude" e,
    distKm := distance (childText c!"latitude" e) (childText c!"longitude" e),
    metar := some [], taf := childText c!"raw_text" e }

theorem get_metars (distance : Distances) (es : List Page.Element) (m : Stations) (id : Option Str) :
    (addMetars distance es m).get id = ((about id es).getLast?.map (metarStation distance)).or (m.get id) := by
  induction es generalizing m with
  | nil => rfl
  | cons e es ih =>
    unfold addMetars
    simp only [getReportFromNodeList, child_text]
    rw [ih, get_set, about_cons]
    by_cases h : stationOf e = id
    · rw [if_pos h, if_pos (show id = childText c!"station_id" e from h.symm), List.getLast?_cons]
      cases (about id es).getLast? <;> rfl
    · rw [if_neg h, if_neg (fun h' : id = childText c!"station_id" e => h h'.symm)]

theorem get_tafs (distance : Distances) (es : List Page.Element) (m : Stations) (id : Option Str) :
    (addTafs distance es m).get id =
      match m.get id, (about id es).getLast? with
      | some s, some e => some { s with taf := childText c!"raw_text" e }
      | none, some e => (about id es).head?.map fun e' => { tafStation distance e' with taf := childText c!"raw_text" e }
      | x, none => x := by
  induction es generalizing m with
  | nil =>
    show m.get id = _
    cases m.get id <;> rfl
  | cons e es ih =>
    unfold addTafs
    simp only [getReportFromNodeList, child_text]
    rw [ih, about_cons]
    by_cases h : stationOf e = id
    · have hid : childText c!"station_id" e = id := h
      rw [hid, if_pos h, List.getLast?_cons, List.head?_cons]
      cases hm : m.get id with
      | none =>
        rw [get_set, if_pos rfl]
        cases hl : (about id es).getLast? <;> rfl
      | some s =>
        rw [get_set, if_pos rfl]
        cases hl : (about id es).getLast? <;> rfl
    · have hid : childText c!"station_id" e ≠ id := h
      rw [if_neg h]
      cases hm : m.get (childText c!"station_id" e) with
      | none => simp only; rw [get_set, if_neg (Ne.symm hid)]
      | some s => simp only; rw [get_set, if_neg (Ne.symm hid)]

theorem get_names (es : List Page.Element) (m : Stations) (id : Option Str) :
    (addStationNames es m).get id = (m.get id).map fun s =>
      { s with name := ((about id es).getLast?.map (childText c!"site")).getD s.name } := by
  induction es generalizing m with
  | nil =>
    show m.get id = _
    cases m.get id <;> rfl
  | cons e es ih =>
    unfold addStationNames
    simp only [child_text]
    rw [ih, about_cons]
    by_cases h : stationOf e = id
    · have hid : childText c!"station_id" e = id := h
      rw [hid, if_pos h, List.getLast?_cons]
      cases hm : m.get id with
      | none => simp only; rw [hm]; rfl
      | some s =>
        simp only
        rw [get_set, if_pos rfl]
        cases hl : (about id es).getLast? <;> rfl
    · have hid : childText c!"station_id" e ≠ id := h
      rw [if_neg h]
      cases hm : m.get (childText c!"station_id" e) with
      | none => rfl
      | some s => simp only; rw [get_set, if_neg (Ne.symm hid)]

/-- C129: the stations shown are those of the METAR and TAF reports received, each once, in the order in which they first
occur, the METAR reports before the TAF reports. -/
theorem C129_order (distance : Distances) (metars tafs stations : List Page.Element) :
    FirstOrder (metars.map stationOf ++ tafs.map stationOf)
      ((addStationNames stations (AWCdataToMap distance metars tafs)).map Prod.fst) := by
  have h1 := keys_metars distance metars (names := []) (m := []) firstOrder_nil
  have h2 := keys_tafs distance tafs h1
  rw [← keys_names stations] at h2
  rw [List.nil_append] at h2
  exact h2

/-- C129: what is shown for a station is what was received last on it. -/
theorem C129_data (distance : Distances) (metars tafs stations : List Page.Element) {id : Option Str} {s : Station}
    (h : (id, s) ∈ addStationNames stations (AWCdataToMap distance metars tafs)) :
    StationData metars tafs stations distance id s := by
  have hn := firstOrder_nodup (C129_order distance metars tafs stations)
  have hg := get_of_mem hn h
  unfold AWCdataToMap at hg
  rw [get_names, get_tafs, get_metars] at hg
  have hnil : Stations.get [] id = none := rfl
  rw [hnil, Option.or_none] at hg
  cases hm : (about id metars).getLast? with
  | some e =>
    rw [hm] at hg
    cases ht : (about id tafs).getLast? with
    | some f =>
      rw [ht] at hg
      obtain rfl := Option.some.inj hg
      constructor <;> simp only [hm, ht, positionOf] <;> rfl
    | none =>
      rw [ht] at hg
      obtain rfl := Option.some.inj hg
      constructor <;> simp only [hm, ht, positionOf] <;> rfl
  | none =>
    rw [hm] at hg
    cases ht : (about id tafs).getLast? with
    | some f =>
      rw [ht] at hg
      cases hh : (about id tafs).head? with
      | none =>
        rw [List.head?_eq_none_iff] at hh
        rw [hh] at ht
        exact nomatch ht
      | some f' =>
        rw [hh] at hg
        obtain rfl := Option.some.inj hg
        constructor <;> simp only [hm, ht, hh, positionOf] <;> rfl
    | none =>
      rw [ht] at hg
      exact nomatch hg

end Metaf.Props

namespace Metaf.Props

open Metaf Metaf.Spec Metaf.Page

/-- Two stations; one of them has two METAR reports, of which the last counts, and a TAF report; the other has only a TAF
report and is not listed. -/
example :
    let metars : List Page.Element :=
      [[(c!"raw_text", c!"METAR A"), (c!"station_id", c!"EGLL"), (c!"latitude", c!"51"), (c!"longitude", c!"0")],
       [(c!"raw_text", c!"METAR B"), (c!"station_id", c!"EGLL"), (c!"latitude", c!"52"), (c!"longitude", c!"1")]]
    let tafs : List Page.Element :=
      [[(c!"raw_text", c!"TAF C"), (c!"station_id", c!"EGSS"), (c!"latitude", c!"53"), (c!"longitude", c!"2")],
       [(c!"raw_text", c!"TAF D"), (c!"station_id", c!"EGLL"), (c!"latitude", c!"54"), (c!"longitude", c!"3")]]
    let stations : List Page.Element := [[(c!"station_id", c!"EGLL"), (c!"site", c!"HEATHROW")]]
    addStationNames stations (AWCdataToMap (fun _ _ => some 5) metars tafs) =
      [(some c!"EGLL", ⟨some c!"HEATHROW", some c!"52", some c!"1", some 5, some c!"METAR B", some c!"TAF D"⟩),
       (some c!"EGSS", ⟨some [], some c!"53", some c!"2", some 5, some [], some c!"TAF C"⟩)] := by decide +kernel

end Metaf.Props
