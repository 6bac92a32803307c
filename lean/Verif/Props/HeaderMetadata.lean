import Verif.Props.HeaderChange
import Verif.Props.Places
import Verif.Ieee

/-!
C145: what the header changes in the metadata of a report.
-/

set_option linter.unusedSectionVars false

namespace Metaf.Props

open Metaf Metaf.Spec

variable [FloatIeee]

/-! ### Specification -/

/-- The last of the words of a header which says something. -/
def saidIn {α : Type} (f : Group → Option α) (hs : Words) : Option α := hs.reverse.findSome? fun x => f x.2

/-- The time of the report which a header gives. -/
def headerTime (hs : Words) : Option MetafTime := saidIn (fun g => match g with | .reportTime t => some t.t | _ => none) hs

/-- The location which a header gives. -/
def headerLocation (hs : Words) : Str :=
  (saidIn (fun g => match g with | .location l => some l.location | _ => none) hs).getD []

/-- The period of the forecast which a header gives. -/
def headerPeriod (hs : Words) : Option (Option MetafTime × Option MetafTime) :=
  saidIn (fun g => match g with | .trend t => some (t.tFrom, t.tTill) | _ => none) hs

/-! ### Proofs -/

/-- The words of a header and their groups. -/
inductive HeaderPiece : Str × Group → Prop
  | keyword {s k} : (s, k) ∈ [(c!"METAR", KeywordType.METAR), (c!"SPECI", .SPECI), (c!"TAF", .TAF), (c!"COR", .COR),
      (c!"AMD", .AMD)] → HeaderPiece (s, .keyword ⟨k⟩)
  | location {l} : LocationWord l → HeaderPiece (l, .location ⟨l⟩)
  | time {d h m} : d < 100 → h < 100 → m < 100 → HeaderPiece (timeText d h m, .reportTime ⟨⟨some d, h, m⟩⟩)

theorem opening_pieces {p : Place} {ty : ReportType} {hs : Words} (h : Opening p ty hs) : ∀ x ∈ hs, HeaderPiece x := by
  have snoc : ∀ {hs : Words} {a}, (∀ x ∈ hs, HeaderPiece x) → HeaderPiece a → ∀ x ∈ hs ++ [a], HeaderPiece x := by
    intro hs a h1 h2 x hx
    rcases List.mem_append.mp hx with hx | hx
    · exact h1 x hx
    · rw [List.mem_singleton.mp hx]; exact h2
  have one : ∀ {a}, HeaderPiece a → ∀ x ∈ [a], HeaderPiece x := fun h x hx => by rw [List.mem_singleton.mp hx]; exact h
  induction h with
  | start => exact fun x hx => by cases hx
  | metar => exact one (.keyword (by simp))
  | speci => exact one (.keyword (by simp))
  | taf => exact one (.keyword (by simp))
  | cor _ ih => exact snoc ih (.keyword (by simp))
  | amd _ ih => exact snoc ih (.keyword (by simp))
  | location _ _ hl ih => exact snoc ih (.location hl)
  | time _ _ h1 h2 h3 ih => exact snoc ih (.time h1 h2 h3)

/-- A complete header is made of such words, and in a forecast of the period at its end. -/
theorem full_pieces {ty : ReportType} {hs : Words} (h : FullHeader ty hs) :
    (ty = .METAR ∧ ∀ x ∈ hs, HeaderPiece x) ∨
    ∃ hs0 d h d' h', ty = .TAF ∧ d < 100 ∧ h < 100 ∧ d' < 100 ∧ h' < 100 ∧
      hs = hs0 ++ [(periodText d h d' h', periodGroup d h d' h')] ∧ ∀ x ∈ hs0, HeaderPiece x := by
  cases h with
  | metar ho h1 h2 h3 =>
    refine Or.inl ⟨rfl, fun x hx => ?_⟩
    rcases List.mem_append.mp hx with hx | hx
    · exact opening_pieces ho x hx
    · rw [List.mem_singleton.mp hx]; exact .time h1 h2 h3
  | taf ho h1 h2 h3 h4 => exact Or.inr ⟨_, _, _, _, _, rfl, h1, h2, h3, h4, rfl, opening_pieces ho⟩
  | tafTime ho h1 h2 h3 h4 => exact Or.inr ⟨_, _, _, _, _, rfl, h1, h2, h3, h4, rfl, opening_pieces ho⟩

theorem full_piece {ty : ReportType} {hs : Words} (h : FullHeader ty hs) {x : Str × Group} (hx : x ∈ hs) :
    HeaderPiece x ∨ ∃ d h d' h', x = (periodText d h d' h', periodGroup d h d' h') := by
  rcases full_pieces h with ⟨-, h⟩ | ⟨hs0, d, h, d', h', -, -, -, -, -, rfl, hp⟩
  · exact Or.inl (h x hx)
  · rcases List.mem_append.mp hx with hx | hx
    · exact Or.inl (hp x hx)
    · exact Or.inr ⟨_, _, _, _, List.mem_singleton.mp hx⟩

theorem body_not_header {ty : ReportType} {now : Option Nat} {ws : List Str} {n : Nat} {gs : List GroupInfo}
    {e : ReportError} (h : BodyMeaning ty now ws n gs e) : ∀ x ∈ gs, x.reportPart ≠ .HEADER := by
  have b : bodyPart ty ≠ .HEADER := by cases ty <;> nofun
  have es : ∀ {items}, ∀ x ∈ entries (bodyPart ty) items, x.reportPart ≠ .HEADER := fun x hx => by
    rw [entries_part _ _ x hx]; exact b
  have af : ∀ {err ws n gs e}, After err ws n gs e → ∀ x ∈ gs, x.reportPart ≠ .HEADER := by
    intro err ws n gs e h
    cases h with
    | nothing => exact fun x hx => by cases hx
    | word h =>
      intro x hx
      rw [List.mem_singleton.mp hx]
      cases h <;> nofun
  have cons : ∀ {x : GroupInfo} {l : List GroupInfo}, x.reportPart ≠ .HEADER → (∀ x ∈ l, x.reportPart ≠ .HEADER) →
      ∀ y ∈ x :: l, y.reportPart ≠ .HEADER := fun h1 h2 y hy => by
    rcases List.mem_cons.mp hy with rfl | hy
    · exact h1
    · exact h2 y hy
  have app : ∀ {k l : List GroupInfo}, (∀ x ∈ k, x.reportPart ≠ .HEADER) → (∀ x ∈ l, x.reportPart ≠ .HEADER) →
      ∀ y ∈ k ++ l, y.reportPart ≠ .HEADER := fun h1 h2 y hy => by
    rcases List.mem_append.mp hy with hy | hy
    · exact h1 y hy
    · exact h2 y hy
  have non : ∀ y ∈ ([] : List GroupInfo), y.reportPart ≠ .HEADER := fun y hy => by cases hy
  cases h with
  | nothing => exact non
  | nil h => exact cons b (af h)
  | cnl _ h => exact cons b (af h)
  | cnlMetar => exact cons b non
  | body => exact es
  | ended => exact app es (cons b non)
  | maintenance => exact app es (cons b non)
  | remarks _ _ h =>
    refine app es (cons b fun x hx => ?_)
    rw [(remarks_hour h none).1 x hx]
    nofun

theorem bodyOutcome_part {ty : ReportType} {now : Option Nat} {ws : List Str} {k : Nat} {gs : List GroupInfo}
    {e : ReportError} (h : BodyOutcome ty now ws k gs e) : ∀ x ∈ gs, x.reportPart ≠ .HEADER := by
  rcases h with ⟨n, h, -⟩ | ⟨us, rest, e', -, h, -⟩
  · exact body_not_header h
  · exact body_not_header h

theorem hasWord_none {k : KeywordType} {gs : List GroupInfo} (h : ∀ x ∈ gs, x.group ≠ .keyword ⟨k⟩) :
    hasWord k gs = false := by
  unfold hasWord
  rw [List.any_eq_false]
  intro x hx
  simpa using h x hx

theorem hasWord_both (k : KeywordType) (a b : List GroupInfo) :
    hasWord k (a ++ b) = (hasWord k a || hasWord k b) := List.any_append

theorem lastSaid_behind {α : Type} {f : GroupInfo → Option α} {a b : List GroupInfo} (h : ∀ x ∈ a, f x = none) :
    lastSaid f (a ++ b) = lastSaid f b := by
  unfold lastSaid
  rw [List.reverse_append, List.findSome?_append,
    List.findSome?_eq_none_iff.mpr fun x hx => h x (List.mem_reverse.mp hx), Option.or_none]

theorem firstSaid_behind {α : Type} {f : GroupInfo → Option α} {a b : List GroupInfo} (h : ∀ x ∈ a, f x = none) :
    firstSaid f (a ++ b) = firstSaid f b := by
  unfold firstSaid
  rw [List.findSome?_append, List.findSome?_eq_none_iff.mpr h, Option.none_or]

theorem lastSaid_header {α : Type} (f : Group → Option α) (hs : Words) :
    lastSaid (fun x => f x.group) (headerEntries hs) = saidIn f hs := by
  unfold lastSaid saidIn headerEntries
  rw [← List.map_reverse, List.findSome?_map]
  rfl

/-- Keywords in a header. -/
theorem header_keyword_word {ty : ReportType} {hs : Words} (h : FullHeader ty hs) {s : Str} {k : KeywordType}
    (hk : (s, k) ∈ [(c!"METAR", KeywordType.METAR), (c!"SPECI", .SPECI), (c!"TAF", .TAF), (c!"COR", .COR),
      (c!"AMD", .AMD)]) : hasWord k (headerEntries hs) = decide (s ∈ wordsOf hs) := by
  have len : s.length = 3 ∨ s.length = 5 := by
    simp only [List.mem_cons, Prod.mk.injEq, List.not_mem_nil, or_false] at hk
    rcases hk with ⟨rfl, -⟩ | ⟨rfl, -⟩ | ⟨rfl, -⟩ | ⟨rfl, -⟩ | ⟨rfl, -⟩ <;> simp
  have key : ∀ x ∈ hs, x.2 = .keyword ⟨k⟩ ↔ x.1 = s := by
    intro x hx
    rcases full_piece h hx with hp | ⟨d, h, d', h', rfl⟩
    · cases hp with
      | @keyword s' k' hk' =>
        simp only [Group.keyword.injEq, KeywordGroup.mk.injEq]
        simp only [List.mem_cons, Prod.mk.injEq, List.not_mem_nil, or_false] at hk hk'
        rcases hk with ⟨rfl, rfl⟩ | ⟨rfl, rfl⟩ | ⟨rfl, rfl⟩ | ⟨rfl, rfl⟩ | ⟨rfl, rfl⟩ <;>
        rcases hk' with ⟨rfl, rfl⟩ | ⟨rfl, rfl⟩ | ⟨rfl, rfl⟩ | ⟨rfl, rfl⟩ | ⟨rfl, rfl⟩ <;> decide
      | location hl =>
        obtain ⟨a, b, c, d, rfl, -⟩ := hl
        constructor
        · nofun
        · rintro rfl
          simp at len
      | @time d h m =>
        constructor
        · nofun
        · rintro rfl
          simp [timeText, decimal_length] at len
    · constructor
      · nofun
      · rintro rfl
        simp [periodText, TrendWord.text, decimal_length] at len
  unfold hasWord headerEntries wordsOf
  rw [Bool.eq_iff_iff]
  simp only [List.any_map, List.any_eq_true, Function.comp, decide_eq_true_eq, List.mem_map]
  exact ⟨fun ⟨x, hx, e⟩ => ⟨x, hx, (key x hx).mp e⟩, fun ⟨x, hx, e⟩ => ⟨x, hx, (key x hx).mpr e⟩⟩

theorem header_without {ty : ReportType} {hs : Words} (h : FullHeader ty hs) {k : KeywordType}
    (hk : k ∉ [.METAR, .SPECI, .TAF, .COR, .AMD]) : hasWord k (headerEntries hs) = false := by
  refine hasWord_none fun x hx => ?_
  obtain ⟨a, ha, rfl⟩ := List.mem_map.mp hx
  rcases full_piece h ha with hp | ⟨d, h, d', h', rfl⟩
  · cases hp with
    | @keyword s' k' hk' =>
      rintro e
      simp only [Group.keyword.injEq, KeywordGroup.mk.injEq] at e
      subst e
      simp only [List.mem_cons, Prod.mk.injEq, List.not_mem_nil, or_false] at hk hk'
      rcases hk' with ⟨-, rfl⟩ | ⟨-, rfl⟩ | ⟨-, rfl⟩ | ⟨-, rfl⟩ | ⟨-, rfl⟩ <;> simp at hk
    | _ => nofun
  · nofun

theorem header_mark {ty : ReportType} {hs : Words} (h : FullHeader ty hs) :
    ∀ x ∈ headerEntries hs, ¬ IsCorrectionMark x.group := by
  intro x hx
  obtain ⟨a, ha, rfl⟩ := List.mem_map.mp hx
  rintro ⟨m, e, -⟩
  rcases full_piece h ha with hp | ⟨d, h, d', h', rfl⟩
  · cases hp <;> cases e
  · cases e

/-- C145. What the metadata of a report say depends on its header as follows. If a complete header is replaced by
another one of the same type with the same hour, then time, location and the marks of a special report, of an amendment
and of a correction are those of the new header, and for a forecast also the period. All else is the same. -/
theorem C145_metadata {s s' : Str} {ty : ReportType} {hs hs' : Words} {ws : List Str} {limit : Nat} {r : ParseResult}
    (hf : FullHeader ty hs) (hf' : FullHeader ty hs') (hh : headerHour hs = headerHour hs')
    (hg : Groups s (wordsOf hs ++ ws)) (hg' : Groups s' (wordsOf hs' ++ ws)) (hl : hs.length ≤ limit)
    (hr : Result s limit r) :
    ∃ r', Result s' (limit - hs.length + hs'.length) r' ∧
      r'.reportMetadata = { r.reportMetadata with
        reportTime := headerTime hs', icaoLocation := headerLocation hs', isSpeci := decide (c!"SPECI" ∈ wordsOf hs')
        isAmended := decide (c!"AMD" ∈ wordsOf hs'), isCorrectional := r'.reportMetadata.isCorrectional
        timeSpanFrom := if ty = .TAF then (headerPeriod hs').bind Prod.fst else r.reportMetadata.timeSpanFrom
        timeSpanUntil := if ty = .TAF then (headerPeriod hs').bind Prod.snd else r.reportMetadata.timeSpanUntil } ∧
      (c!"COR" ∈ wordsOf hs' → r'.reportMetadata.isCorrectional = true) ∧
      (c!"COR" ∉ wordsOf hs → c!"COR" ∉ wordsOf hs' →
        r'.reportMetadata.isCorrectional = r.reportMetadata.isCorrectional) := by
  obtain ⟨k, rfl⟩ : ∃ k, limit = hs.length + k := ⟨limit - hs.length, by omega⟩
  obtain ⟨gs, e, h⟩ := bodyOutcome_exists (full_type hf) (headerHour hs) ws k
  obtain ⟨h1, h2, h3⟩ := outcome_of_result hg hr (outcome_typed hf h)
  have hb := bodyOutcome_part h
  have hr' := C85_record hr
  rw [h1, h2, h3] at hr'
  have hpl : ∀ x ∈ gs, .HEADER ∉ [x.reportPart] ∧ x.reportPart ∈ placesOf (varietyOf x.group) := fun x hx =>
    ⟨fun h => hb x hx (List.mem_singleton.mp h).symm, C138_places s _ r hr x (by rw [h1]; exact List.mem_append_right _ hx)⟩
  have only : ∀ {g : Group}, placesOf (varietyOf g) = [.HEADER] → ∀ x ∈ gs, x.group ≠ g := by
    intro g hv x hx e
    obtain ⟨a, b⟩ := hpl x hx
    rw [e, hv] at b
    exact hb x hx (List.mem_singleton.mp b)
  have t0 : ∀ x ∈ gs, timeValue x.group = none := by
    intro x hx
    cases hgx : x.group with
    | reportTime t => exact absurd hgx (only rfl x hx)
    | _ => rfl
  have l0 : ∀ x ∈ gs, locationText x.group = none := by
    intro x hx
    cases hgx : x.group with
    | location t => exact absurd hgx (only rfl x hx)
    | _ => rfl
  rw [hh] at h
  have h' := outcome_typed hf' h
  rw [show hs.length + k - hs.length + hs'.length = hs'.length + k by omega]
  have time : lastSaid (fun x => timeValue x.group) (headerEntries hs' ++ gs) = headerTime hs' := by
    rw [lastSaid_append t0, lastSaid_header]
    rfl
  have place : (lastSaid (fun x => locationText x.group) (headerEntries hs' ++ gs)).getD [] = headerLocation hs' := by
    rw [lastSaid_append l0, lastSaid_header]
    rfl
  have same : ∀ k ∉ [KeywordType.METAR, .SPECI, .TAF, .COR, .AMD],
      hasWord k (headerEntries hs' ++ gs) = hasWord k (headerEntries hs ++ gs) := fun k hk => by
    rw [hasWord_both, hasWord_both, header_without hf hk, header_without hf' hk]
  have new : ∀ {s k}, (s, k) ∈ [(c!"SPECI", KeywordType.SPECI), (c!"AMD", .AMD)] →
      hasWord k (headerEntries hs' ++ gs) = decide (s ∈ wordsOf hs') := by
    intro s k hk
    have hv : placesOf (.keyword k) = [.HEADER] := by
      simp only [List.mem_cons, Prod.mk.injEq, List.not_mem_nil, or_false] at hk
      rcases hk with ⟨-, rfl⟩ | ⟨-, rfl⟩ <;> rfl
    rw [hasWord_append (only hv)]
    refine header_keyword_word hf' ?_
    simp only [List.mem_cons, Prod.mk.injEq, List.not_mem_nil, or_false] at hk ⊢
    rcases hk with h | h <;> simp [h]
  have number : lastSaid correctionOf (headerEntries hs' ++ gs) = lastSaid correctionOf (headerEntries hs ++ gs) := by
    rw [lastSaid_behind (f := correctionOf) fun x hx => if_neg (header_mark hf' x hx),
      lastSaid_behind (f := correctionOf) fun x hx => if_neg (header_mark hf x hx)]
  have marks : ∀ {hs : Words}, FullHeader ty hs →
      ((headerEntries hs ++ gs).any fun x => decide (IsCorrectionMark x.group)) =
        gs.any fun x => decide (IsCorrectionMark x.group) := by
    intro hs hf
    rw [List.any_append]
    have : ((headerEntries hs).any fun x => decide (IsCorrectionMark x.group)) = false := by
      simpa using header_mark hf
    rw [this, Bool.false_or]
  have cor : ∀ {hs : Words}, FullHeader ty hs →
      hasWord .COR (headerEntries hs ++ gs) = (decide (c!"COR" ∈ wordsOf hs) || hasWord .COR gs) := by
    intro hs hf
    rw [hasWord_both, header_keyword_word hf (s := c!"COR") (by simp)]
  have pieces : ∀ {hs : Words}, (∀ x ∈ hs, HeaderPiece x) → ∀ x ∈ headerEntries hs, periodOf x = none := by
    intro hs h x hx
    obtain ⟨a, ha, rfl⟩ := List.mem_map.mp hx
    have := h a ha
    cases this <;> rfl
  have period : firstSaid periodOf (headerEntries hs' ++ gs) =
      if ty = .TAF then headerPeriod hs' else firstSaid periodOf (headerEntries hs ++ gs) := by
    rcases full_pieces hf' with ⟨rfl, hp'⟩ | ⟨hs0, d, h, d', h', rfl, -, -, -, -, rfl, hp⟩
    · rcases full_pieces hf with ⟨-, hp⟩ | ⟨hs0, d, h, d', h', ht, -⟩
      · rw [if_neg nofun, firstSaid_behind (pieces hp'), firstSaid_behind (pieces hp)]
      · cases ht
    · rw [if_pos rfl, headerEntries, List.map_append, List.append_assoc]
      rw [← headerEntries, firstSaid_behind (pieces hp)]
      unfold headerPeriod saidIn
      rw [List.reverse_append]
      rfl
  refine ⟨_, C85_result hg' h', ?_, ?_, ?_⟩
  · rw [hr']
    simp only [recordOf, time, place, number, period, new (s := c!"SPECI") (k := .SPECI) (by simp),
      new (s := c!"AMD") (k := .AMD) (by simp), same .NOSPECI (by decide), same .AUTO (by decide), same .AO1 (by decide),
      same .AO1A (by decide), same .AO2 (by decide), same .AO2A (by decide), same .NIL (by decide), same .CNL (by decide),
      same .MAINTENANCE_INDICATOR (by decide)]
    congr 1
    · split <;> rfl
    · split <;> rfl
  · intro hc
    show (hasWord .COR _ || _) = true
    rw [cor hf', decide_eq_true hc]
    rfl
  · intro hc hc'
    rw [hr']
    show (hasWord .COR _ || _) = (hasWord .COR _ || _)
    rw [cor hf', cor hf, marks hf', marks hf, decide_eq_false hc, decide_eq_false hc']

end Metaf.Props

namespace Metaf.Props

open Metaf Metaf.Spec

attribute [local instance] ieee

/-- The words of the header of `TAF ULLI 111100Z 1112/1212`. -/
def tafHeader : Words := [(c!"TAF", .keyword ⟨.TAF⟩), (c!"ULLI", .location ⟨c!"ULLI"⟩),
  (c!"111100Z", .reportTime ⟨⟨some 11, 11, 0⟩⟩), (periodText 11 12 12 12, periodGroup 11 12 12 12)]

/-- The words of the header of `TAF AMD EDDF 121130Z 1200/1306`. -/
def amendedHeader : Words := [(c!"TAF", .keyword ⟨.TAF⟩), (c!"AMD", .keyword ⟨.AMD⟩), (c!"EDDF", .location ⟨c!"EDDF"⟩),
  (c!"121130Z", .reportTime ⟨⟨some 12, 11, 30⟩⟩), (periodText 12 0 13 6, periodGroup 12 0 13 6)]

theorem tafHeader_full : FullHeader .TAF tafHeader := by
  have l : LocationWord c!"ULLI" := ⟨_, _, _, _, rfl, by unfold Capital; decide, Or.inl (by unfold Capital; decide),
    Or.inl (by unfold Capital; decide), Or.inl (by unfold Capital; decide)⟩
  exact .tafTime (hs := [(c!"TAF", .keyword ⟨.TAF⟩), (c!"ULLI", .location ⟨c!"ULLI"⟩),
    (c!"111100Z", .reportTime ⟨⟨some 11, 11, 0⟩⟩)]) (.time (hs := [(c!"TAF", .keyword ⟨.TAF⟩),
      (c!"ULLI", .location ⟨c!"ULLI"⟩)]) (d := 11) (h := 11) (m := 0) (.location (Or.inr (Or.inl rfl)) .taf l) nofun
      (by decide) (by decide) (by decide)) (by decide) (by decide) (by decide) (by decide)

theorem amendedHeader_full : FullHeader .TAF amendedHeader := by
  have l : LocationWord c!"EDDF" := ⟨_, _, _, _, rfl, by unfold Capital; decide, Or.inl (by unfold Capital; decide),
    Or.inl (by unfold Capital; decide), Or.inl (by unfold Capital; decide)⟩
  exact .tafTime (hs := [(c!"TAF", .keyword ⟨.TAF⟩), (c!"AMD", .keyword ⟨.AMD⟩), (c!"EDDF", .location ⟨c!"EDDF"⟩),
    (c!"121130Z", .reportTime ⟨⟨some 12, 11, 30⟩⟩)]) (.time (hs := [(c!"TAF", .keyword ⟨.TAF⟩), (c!"AMD", .keyword ⟨.AMD⟩),
      (c!"EDDF", .location ⟨c!"EDDF"⟩)]) (d := 12) (h := 11) (m := 30)
      (.location (Or.inr (Or.inr rfl)) (.amd .taf) l) nofun (by decide) (by decide) (by decide))
    (by decide) (by decide) (by decide) (by decide)

/-- The hypotheses of C145 are met by these headers and any words after them. -/
example (s s' : Str) (ws : List Str) (r : ParseResult) (hg : Groups s (wordsOf tafHeader ++ ws))
    (hg' : Groups s' (wordsOf amendedHeader ++ ws)) (hr : Result s 200 r) :
    ∃ r', Result s' 201 r' ∧ r'.reportMetadata.icaoLocation = c!"EDDF" ∧ r'.reportMetadata.isAmended = true ∧
      r'.reportMetadata.reportTime = some ⟨some 12, 11, 30⟩ ∧
      r'.reportMetadata.timeSpanUntil = some ⟨some 13, 6, 0⟩ ∧
      r'.reportMetadata.isNil = r.reportMetadata.isNil := by
  obtain ⟨r', h1, h2, -, -⟩ := C145_metadata tafHeader_full amendedHeader_full rfl hg hg' (by decide) hr
  exact ⟨r', h1, by rw [h2]; rfl, by rw [h2]; rfl, by rw [h2]; rfl, by rw [h2]; rfl, by rw [h2]⟩

end Metaf.Props
