import Verif.Proofs.ParserSyntax

/-!
The metadata along a run of the parser.
-/

set_option linter.unusedSectionVars false

namespace Metaf

variable [FloatSem]

open Spec Grammar

/-! ### Groups which leave a trace in the metadata -/

/-- A group which has an effect on the metadata. -/
def sig (g : Group) : Option Group :=
  match g with
  | .keyword _ => some g
  | .location _ => some g
  | .reportTime _ => some g
  | .trend t => if t.isTafTimeSpanGroup then some g else none
  | .misc m => if m.groupType = .CORRECTED_WEATHER_OBSERVATION then some g else none
  | _ => none

/-- The groups with an effect on the metadata. -/
def skel (gs : List GroupInfo) : List Group := gs.filterMap (fun gi => sig gi.group)

/-- Groups with an effect on the metadata are complete. -/
def SigOk (g : Group) : Prop :=
  match g with
  | .trend t => t.isTafTimeSpanGroup = true → t.isTimeSpanGroup = true
  | .misc m => m.groupType = .CORRECTED_WEATHER_OBSERVATION → m.incompleteText = .NONE
  | _ => True

/-- The text of a correction mark in the body of a METAR. -/
def Correction (s : Str) (p : ReportPart) : Prop :=
  p = .METAR ∧ (regexMatch MiscGroup.correctionRgx s).isSome

theorem Group.index_le (g : Group) : g.index ≤ 21 := by cases g <;> simp [Group.index]

theorem sig_of_index {g : Group} (h : 4 ≤ g.index) (h2 : g.index ≠ 20) : sig g = none := by
  cases g <;> first | rfl | (simp [Group.index] at h h2)

/-- An entry without effect on the metadata does not hold a correction mark. -/
def MiscOk (gi : GroupInfo) : Prop :=
  SigOk gi.group ∧
  (sig gi.group = none → gi.group.index < 21 → ¬ Correction gi.rawString gi.reportPart)

theorem MiscGroup.parse_corrected {s : Str} {p : ReportPart} {m : MiscGroup}
    (h : MiscGroup.parse s p = some m) (hm : m.groupType = .CORRECTED_WEATHER_OBSERVATION) :
    Correction s p ∧ m.incompleteText = .NONE := by
  have colour : ∀ {s c}, parseColourCode s = some c → c ≠ .CORRECTED_WEATHER_OBSERVATION := by
    intro s c hc
    unfold parseColourCode at hc
    ite_cases hc
    all_goals first
      | (injection hc with hc; subst hc; simp; done)
      | (simp at hc; done)
  unfold parse at h
  split at h
  · split at h
    · rename_i c hc
      injection h with h; subst h
      exact absurd hm (colour hc)
    · split at h
      · rename_i x hx
        injection h with h; subst h
        exact ⟨⟨rfl, by simp [hx]⟩, rfl⟩
      · simp at h
  · split at h
    · injection h with h; subst h
      simp only at hm
      split at hm <;> simp at hm
    · simp at h
  · split at h
    · rename_i c hc
      injection h with h; subst h
      exact absurd hm (colour hc)
    · ite_cases h
      · injection h with h; subst h; simp at hm
      · injection h with h; subst h; simp at hm
      · split at h
        · injection h with h; subst h; simp at hm
        · ite_cases h
          · injection h with h; subst h; simp at hm
          · simp at h
  · simp at h

theorem MiscGroup.parse_of_correction {s : Str} {p : ReportPart} {m : MiscGroup}
    (h : MiscGroup.parse s p = some m) (hc : Correction s p)
    (hn : parseColourCode s = none) : m.groupType = .CORRECTED_WEATHER_OBSERVATION := by
  obtain ⟨rfl, hc⟩ := hc
  obtain ⟨x, hx⟩ := Option.isSome_iff_exists.mp hc
  simp only [parse, hn, hx] at h
  injection h with h; subst h; rfl

/-- The upper case letters. -/
def upperLetters : Str := (List.range 26).map (fun i => Char.ofNat (65 + i))

theorem mem_upperLetters {c : Char} (h1 : 65 ≤ c.toNat) (h2 : c.toNat ≤ 90) : c ∈ upperLetters := by
  simp only [upperLetters, List.mem_map, List.mem_range]
  refine ⟨c.toNat - 65, by omega, ?_⟩
  rw [show 65 + (c.toNat - 65) = c.toNat by omega]
  exact Char.ofNat_toNat c

theorem correction_text {s : Str} {p : ReportPart} (h : Correction s p) :
    ∃ c ∈ upperLetters, s = ['C', 'C', c] := by
  obtain ⟨-, h⟩ := h
  obtain ⟨x, hx⟩ := Option.isSome_iff_exists.mp h
  have hs := regexMatch_sound hx
  simp only [MiscGroup.correctionRgx, Rx.match_seq, Rx.match_cap, Rx.match_lit, Rx.AZ,
    Rx.match_set] at hs
  obtain ⟨u, v, ca, cb, ⟨rfl, rfl⟩, ⟨_, ⟨c, hc, rfl, rfl⟩, rfl⟩, rfl, rfl⟩ := hs
  refine ⟨c, ?_, rfl⟩
  simp [Rx.inSet] at hc
  exact mem_upperLetters hc.1 hc.2

/-- Does a recogniser reject? -/
def rejects : Res (Option Group) → Bool
  | .ok none => true
  | _ => false

theorem correction_rejected (md : ReportMetadata) :
    upperLetters.all (fun c => (List.range 20).all
      (fun i => rejects (recognise i ['C', 'C', c] .METAR md))) = true := by kernel_rfl

theorem correction_colour :
    ∀ c ∈ upperLetters, MiscGroup.parseColourCode ['C', 'C', c] = none := by decide +kernel

theorem miscOk_parse {s : Str} {p : ReportPart} {md : ReportMetadata} {g : Group}
    (h : GroupParser.parse s p md = .ok g) :
    MiscOk { group := g, reportPart := p, rawString := s } := by
  obtain ⟨h1, h2⟩ := GroupParser.parse_first h
  constructor
  · cases g with
    | trend t =>
      have h2 : TrendGroup.parse s p = some t := by
        simpa [recognise, Group.index] using h2
      exact TrendGroup.parse_flags h2
    | misc m =>
      have h2 : MiscGroup.parse s p = some m := by
        simpa [recognise, Group.index] using h2
      exact fun hm => (MiscGroup.parse_corrected h2 hm).2
    | _ => trivial
  · intro hs hi hc
    obtain ⟨c, hcu, rfl⟩ := correction_text hc
    have hp : p = .METAR := hc.1
    subst hp
    rcases h2 with h2 | h2
    · by_cases h20 : g.index = 20
      · cases g with
        | misc m =>
          have h2 : MiscGroup.parse ['C', 'C', c] .METAR = some m := by
            simpa [recognise, Group.index] using h2
          have := MiscGroup.parse_of_correction h2 hc (correction_colour c hcu)
          simp [sig, this] at hs
        | _ => simp [Group.index] at h20
      · have := correction_rejected md
        rw [List.all_eq_true] at this
        have := this c hcu
        rw [List.all_eq_true] at this
        have := this g.index (by simp at hi ⊢; omega)
        rw [h2] at this
        simp [rejects] at this
    · subst h2
      simp [Group.index] at hi

theorem sig_append {g g' : Group} {tok : Str} {p : ReportPart} {md : ReportMetadata}
    {r : AppendResult} (hs : SigOk g) (hi : g.Inv) (ha : g.append tok p md = .ok (g', r)) :
    sig g' = sig g ∧ SigOk g' ∧ (r ≠ .NOT_APPENDED → sig g = none) := by
  obtain ⟨q, hq, -, hidx⟩ := Group.append_ok hi tok p md
  rw [ha] at hq
  injection hq with hq
  subst hq
  simp only at hidx
  by_cases h4 : 4 ≤ g.index ∧ g.index ≠ 20
  · have h1 := sig_of_index h4.1 h4.2
    have h2 := sig_of_index (g := g') (by omega) (by omega)
    refine ⟨by rw [h1, h2], ?_, fun _ => h1⟩
    cases g' <;> first | trivial | (simp only [Group.index] at hidx h4; omega)
  · cases g with
    | keyword k =>
      simp only [Group.append, KeywordGroup.append, Except.ok.injEq, Prod.mk.injEq] at ha
      obtain ⟨rfl, rfl⟩ := ha
      exact ⟨rfl, hs, by simp⟩
    | location k =>
      simp only [Group.append, LocationGroup.append, Except.ok.injEq, Prod.mk.injEq] at ha
      obtain ⟨rfl, rfl⟩ := ha
      exact ⟨rfl, hs, by simp⟩
    | reportTime k =>
      simp only [Group.append, ReportTimeGroup.append, Except.ok.injEq, Prod.mk.injEq] at ha
      obtain ⟨rfl, rfl⟩ := ha
      exact ⟨rfl, hs, by simp⟩
    | trend k =>
      simp only [Group.append, Except.ok.injEq, Prod.mk.injEq] at ha
      obtain ⟨rfl, rfl⟩ := ha
      rcases TrendGroup.append_flags (g := k) (s := tok) (p := p) (g' := (k.append tok p).1)
        (r := (k.append tok p).2) hs (Prod.ext rfl rfl) with ⟨h1, h2⟩ | ⟨h1, h2, h3⟩
      · rw [h1, h2]
        exact ⟨rfl, hs, by simp⟩
      · rw [h1]
        refine ⟨by simp [sig, h2, h3], fun hf => by rw [h3] at hf; simp at hf, fun _ => by simp [sig, h2]⟩
    | misc m =>
      simp only [Group.append, Except.ok.injEq, Prod.mk.injEq] at ha
      obtain ⟨rfl, rfl⟩ := ha
      by_cases hm : m.groupType = .CORRECTED_WEATHER_OBSERVATION
      · have : m.append tok = (m, .NOT_APPENDED) := by
          simp [MiscGroup.append, hs hm]
        rw [this]
        exact ⟨rfl, hs, by simp⟩
      · have : (m.append tok).1.groupType = m.groupType := by
          unfold MiscGroup.append
          repeat' split
          all_goals first
            | rfl
            | (rename_i g' hg'
               first
               | (unfold MiscGroup.appendDensityAltitude at hg'
                  ite_cases hg'
                  all_goals first
                    | (simp at hg'; done)
                    | (split at hg'
                       · simp at hg'
                       · injection hg' with hg'; subst hg'; rfl))
               | (unfold MiscGroup.appendHailstoneFraction at hg'
                  simp only at hg'
                  ite_cases hg'
                  all_goals first
                    | (simp at hg'; done)
                    | (injection hg' with hg'; subst hg'; rfl)))
        refine ⟨by simp [sig, hm, this], fun hf => absurd (this ▸ hf) hm, fun _ => by simp [sig, hm]⟩
    | _ => simp [Group.index] at h4

/-- A freshly parsed trend group without the mark of a time span is not a time span. -/
theorem TrendGroup.parse_type {s : Str} {p : ReportPart} {g : TrendGroup} (h : parse s p = some g)
    (hf : g.isTafTimeSpanGroup = false) : g.t ≠ .TIME_SPAN := by
  have hts : ∀ {s g}, fromTimeSpan s = some g → g.isTafTimeSpanGroup = true := by
    intro s g hg
    unfold fromTimeSpan at hg
    split at hg
    · simp at hg
    · split at hg
      · injection hg with hg; subst hg; rfl
      · simp at hg
  have hhm : ∀ {s g}, fromTimeSpanHHMM s = some g → g.isTafTimeSpanGroup = true := by
    intro s g hg
    unfold fromTimeSpanHHMM at hg
    split at hg
    · simp at hg
    · split at hg
      · injection hg with hg; subst hg; rfl
      · simp at hg
  have hfm : ∀ {s g}, fromFm s = some g → g.t ≠ .TIME_SPAN := by
    intro s g hg
    unfold fromFm at hg
    split at hg
    · simp at hg
    · split at hg
      · simp at hg
      · injection hg with hg; subst hg; simp
  have htt : ∀ {s g}, fromTrendTime s = some g → g.t ≠ .TIME_SPAN := by
    intro s g hg
    unfold fromTrendTime at hg
    split at hg
    · simp at hg
    · split at hg
      · simp at hg
      · ite_cases hg
        all_goals first
          | (injection hg with hg; subst hg; simp; done)
          | (simp at hg; done)
  unfold parse at h
  ite_cases h
  · injection h with h; subst h; simp
  · injection h with h; subst h; simp
  · injection h with h; subst h; simp
  cases p with
  | UNKNOWN => simp at h
  | RMK => simp at h
  | HEADER => rw [hts h] at hf; simp at hf
  | METAR =>
    simp only at h
    ite_cases h
    · injection h with h; subst h; simp
    split at h
    · rename_i g' hg'
      injection h with h; subst h
      exact htt hg'
    · rw [hhm h] at hf; simp at hf
  | TAF =>
    simp only at h
    ite_cases h
    · injection h with h; subst h; simp
    · injection h with h; subst h; simp
    split at h
    · rename_i g' hg'
      injection h with h; subst h
      rw [hts hg'] at hf; simp at hf
    · split at h
      · rename_i g' hg'
        injection h with h; subst h
        exact hfm hg'
      · rw [hts h] at hf; simp at hf

theorem sig_parse_none {s : Str} {p : ReportPart} {md : ReportMetadata} {g : Group}
    (h : GroupParser.parse s p md = .ok g) (hs : sig g = none) (m : ReportMetadata)  :
    Parser.updateMetadata g m = m := by
  obtain ⟨h1, h2⟩ := GroupParser.parse_first h
  cases g with
  | keyword k => simp [sig] at hs
  | location k => simp [sig] at hs
  | reportTime k => simp [sig] at hs
  | trend t =>
    have h2 : TrendGroup.parse s p = some t := by
      simpa [recognise, Group.index] using h2
    have hf : t.isTafTimeSpanGroup = false := by
      simpa [sig] using hs
    have : t.t ≠ .TIME_SPAN := TrendGroup.parse_type h2 hf
    simp [Parser.updateMetadata, this]
  | misc k =>
    have : k.groupType ≠ .CORRECTED_WEATHER_OBSERVATION := by
      intro hk
      simp [sig, hk] at hs
    simp [Parser.updateMetadata, this]
  | _ => rfl

namespace Parser

def EntriesMisc (gs : List GroupInfo) : Prop := ∀ gi ∈ gs, MiscOk gi

theorem skel_fallback {g : Group} (h : g.isFallback = true) : sig g = none := by
  cases g <;> first | rfl | (simp [Group.isFallback] at h)

theorem correction_no_space {s t : Str} {p : ReportPart} : ¬ Correction (s ++ c!" " ++ t) p := by
  intro h
  obtain ⟨c, hc, he⟩ := correction_text h
  have : ' ' ∈ s ++ c!" " ++ t := by simp
  rw [he] at this
  simp only [List.mem_cons, List.not_mem_nil, or_false] at this
  rcases this with h | h | h
  · exact absurd h (by decide)
  · exact absurd h (by decide)
  · subst h
    revert hc
    decide

theorem correction_nil {p : ReportPart} : ¬ Correction [] p := by
  intro h
  obtain ⟨c, hc, he⟩ := correction_text h
  simp at he

theorem skel_addGroup {gs : List GroupInfo} {g : Group} {p : ReportPart} {s : Str} :
    skel (addGroupToResult gs g p s) = (sig g).toList ++ skel gs := by
  have hd : ∀ (x : GroupInfo) (r : List GroupInfo),
      skel (x :: r) = (sig x.group).toList ++ skel r := by
    intro x r
    simp only [skel, List.filterMap_cons]
    cases sig x.group <;> simp
  cases gs with
  | nil => simp only [addGroupToResult, hd]
  | cons last rest =>
    simp only [addGroupToResult]
    split
    · rename_i hb
      simp only [Bool.and_eq_true] at hb
      simp [hd, skel_fallback hb.1]
    · simp only [hd]

theorem entriesMisc_addGroup {gs : List GroupInfo} {g : Group} {p : ReportPart} {s : Str}
    (h : EntriesMisc gs) (hg : MiscOk { group := g, reportPart := p, rawString := s }) :
    EntriesMisc (addGroupToResult gs g p s) := by
  cases gs with
  | nil => intro x hx; simp only [addGroupToResult, List.mem_singleton] at hx; subst hx; exact hg
  | cons last rest =>
    simp only [addGroupToResult]
    split
    · rename_i hb
      simp only [Bool.and_eq_true] at hb
      intro x hx
      rcases List.mem_cons.mp hx with rfl | hx
      · exact ⟨(h last (by simp)).1, fun _ _ => correction_no_space⟩
      · exact h x (by simp [hx])
    · intro x hx
      rcases List.mem_cons.mp hx with rfl | hx
      · exact hg
      · exact h x hx

theorem skel_cons (x : GroupInfo) (r : List GroupInfo) :
    skel (x :: r) = (sig x.group).toList ++ skel r := by
  simp only [skel, List.filterMap_cons]
  cases sig x.group <;> simp

theorem sig_reparse {tok : Str} {p : ReportPart} {md : ReportMetadata} {last : GroupInfo}
    {g rp : Group} (hl : EntryOk last) (hinv : last.group.Inv) (hmo : MiscOk last)
    (hf : last.group.isFallback = false) (hs : last.rawString ≠ [])
    (ha : last.group.append tok p md = .ok (g, .GROUP_INVALIDATED))
    (hr : GroupParser.reparse last.rawString last.reportPart md g = .ok rp) :
    sig last.group = none ∧ ¬ Correction last.rawString last.reportPart ∧
      sig rp = none ∧ SigOk rp ∧ rp.Inv := by
  have h4 := ((entry_append hl hinv ha).2.2.2 rfl).1
  have hr4 := reparse_other hl h4 hs hr
  have hsig := (sig_append hmo.1 hinv ha).2.2 (by simp)
  have h21 : last.group.index < 21 := by
    have h1 := Group.index_le last.group
    have h2 : last.group.index ≠ 21 := fun h => by
      have := isFallback_iff.mpr h
      rw [hf] at this
      simp at this
    omega
  have hnc := hmo.2 hsig h21
  obtain ⟨rp', h1, h2⟩ := GroupParser.reparse_ok last.rawString last.reportPart md g
  rw [hr] at h1; injection h1 with h1; subst h1
  have hrp : sig rp = none := by
    by_cases h20 : rp.index = 20
    · cases rp with
      | misc m =>
        obtain ⟨-, h5 | h5⟩ := GroupParser.reparse_first hr
        · have h5 : MiscGroup.parse last.rawString last.reportPart = some m := by
            simpa [recognise, Group.index] using h5.1
          by_cases hc : m.groupType = .CORRECTED_WEATHER_OBSERVATION
          · exact absurd (MiscGroup.parse_corrected h5 hc).1 hnc
          · simp [sig, hc]
        · simp at h5
      | _ => simp [Group.index] at h20
    · exact sig_of_index hr4 h20
  refine ⟨hsig, hnc, hrp, ?_, h2⟩
  cases rp with
  | trend t => simp [Group.index] at hr4
  | misc m =>
    intro hc
    simp [sig, hc] at hrp
  | _ => trivial

/-- An attempt to append keeps the groups with an effect on the metadata. -/
theorem Appended.skel {tok : Str} {p : ReportPart} {md : ReportMetadata}
    {gs gs' : List GroupInfo} {b : Bool} (h : Appended tok p md gs gs' b) (hi : GroupsInv gs)
    (he : EntriesOk gs) (hm : EntriesMisc gs) (hh : HeadText gs) :
    EntriesMisc gs' ∧ Metaf.skel gs' = Metaf.skel gs := by
  have keep : ∀ {x last : GroupInfo} {rest : List GroupInfo}, EntriesMisc (last :: rest) →
      MiscOk x → EntriesMisc (x :: rest) := by
    intro x last rest hl hx y hy
    rcases List.mem_cons.mp hy with rfl | hy
    · exact hx
    · exact hl y (by simp [hy])
  have re : ∀ {last : GroupInfo} {g rp : Group}, EntryOk last →
      last.group.Inv → MiscOk last → last.group.isFallback = false →
      last.rawString ≠ [] → last.group.append tok p md = .ok (g, .GROUP_INVALIDATED) →
      GroupParser.reparse last.rawString last.reportPart md g = .ok rp →
      sig last.group = none ∧ ¬ Correction last.rawString last.reportPart ∧
      sig rp = none ∧ SigOk rp ∧ rp.Inv := sig_reparse
  cases h with
  | empty => exact ⟨hm, rfl⟩
  | fallback => exact ⟨hm, rfl⟩
  | @appended last rest g hf ha =>
    obtain ⟨h1, h2, h3⟩ := sig_append (hm last (by simp)).1 (hi last (by simp)) ha
    refine ⟨keep hm ⟨h2, fun _ _ => correction_no_space⟩, ?_⟩
    simp only [skel_cons, h1]
  | @rejected last rest g hf ha =>
    obtain ⟨h1, h2, h3⟩ := sig_append (hm last (by simp)).1 (hi last (by simp)) ha
    obtain ⟨q, hq, -, hidx⟩ := Group.append_ok (hi last (by simp)) tok p md
    rw [ha] at hq
    injection hq with hq
    subst hq
    refine ⟨keep hm ⟨h2, fun h5 h6 => (hm last (by simp)).2 (h1 ▸ h5) (by simp only at hidx h6; omega)⟩, ?_⟩
    simp only [skel_cons, h1]
  | @unknown last rest g rp hf ha hr hfb =>
    obtain ⟨h1, h2, h3, h4, h5⟩ := re (he last (by simp)) (hi last (by simp)) (hm last (by simp)) hf
      (hh last (by simp)) ha hr
    constructor
    · exact entriesMisc_addGroup (fun x hx => hm x (by simp [hx])) ⟨h4, fun _ _ => h2⟩
    · rw [skel_addGroup, skel_cons, h1, h3]
  | @reAppended last rest g rp g2 hf ha hr hfb ha2 =>
    obtain ⟨h1, h2, h3, h4, h5⟩ := re (he last (by simp)) (hi last (by simp)) (hm last (by simp)) hf
      (hh last (by simp)) ha hr
    obtain ⟨h6, h7, h8⟩ := sig_append h4 h5 ha2
    refine ⟨keep hm ⟨h7, fun _ _ => correction_no_space⟩, ?_⟩
    simp only [skel_cons, h1, h3, h6]
  | @reRejected last rest g rp g2 hf ha hr hfb ha2 =>
    obtain ⟨h1, h2, h3, h4, h5⟩ := re (he last (by simp)) (hi last (by simp)) (hm last (by simp)) hf
      (hh last (by simp)) ha hr
    obtain ⟨h6, h7, h8⟩ := sig_append h4 h5 ha2
    refine ⟨keep hm ⟨h7, fun _ _ => h2⟩, ?_⟩
    simp only [skel_cons, h1, h3, h6]
  | @reInvalidated last rest g rp g2 hf ha hr hfb ha2 =>
    obtain ⟨h1, h2, h3, h4, h5⟩ := re (he last (by simp)) (hi last (by simp)) (hm last (by simp)) hf
      (hh last (by simp)) ha hr
    obtain ⟨h6, h7, h8⟩ := sig_append h4 h5 ha2
    constructor
    · intro x hx
      rcases List.mem_cons.mp hx with rfl | hx
      · exact ⟨trivial, fun _ _ => h2⟩
      · exact keep hm ⟨h7, fun _ _ => correction_nil⟩ x hx
    · simp only [skel_cons, h1, h3, h6]
      simp [sig]

/-- The metadata is determined by the groups with an effect on it. -/
theorem Run.meta {limit : Nat} {done : List Str} {v : Vars} (h : Run limit done v) :
    EntriesMisc v.groups ∧ v.md = (Metaf.skel v.groups).foldr updateMetadata {} := by
  have upd : ∀ {s p md g}, GroupParser.parse s p md = .ok g → ∀ (l : List Group),
      updateMetadata g (l.foldr updateMetadata {}) =
        ((sig g).toList ++ l).foldr updateMetadata {} := by
    intro s p md g hp l
    cases hs : sig g with
    | none => exact sig_parse_none hp hs _
    | some g' =>
      have : g' = g := by
        unfold sig at hs
        split at hs
        all_goals first
          | (injection hs with hs; exact hs.symm)
          | (split at hs
             · injection hs with hs; exact hs.symm
             · simp at hs)
          | simp at hs
      subst this
      rfl
  induction h with
  | start => exact ⟨fun x hx => by simp at hx, rfl⟩
  | step hr _ _ _ hst ih =>
    cases hst with
    | absorbed ha =>
      have := ha.skel hr.inv hr.entriesOk ih.1 hr.headText
      exact ⟨this.1, by rw [this.2]; exact ih.2⟩
    | parsed ha hp =>
      have := ha.skel hr.inv hr.entriesOk ih.1 hr.headText
      refine ⟨entriesMisc_addGroup this.1 (miscOk_parse hp), ?_⟩
      simp only
      rw [skel_addGroup, this.2, ih.2]
      exact upd hp _
    | reparsed ha _ _ _ _ _ _ hp =>
      have := ha.skel hr.inv hr.entriesOk ih.1 hr.headText
      refine ⟨entriesMisc_addGroup this.1 (miscOk_parse hp), ?_⟩
      simp only
      rw [skel_addGroup, this.2, ih.2]
      exact upd hp _

theorem sig_eq {g g' : Group} (h : sig g = some g') : g' = g := by
  unfold sig at h
  split at h
  all_goals first
    | (injection h with h; exact h.symm)
    | (split at h
       · injection h with h; exact h.symm
       · simp at h)
    | simp at h

/-- An attempt to append keeps the entries with an effect on the metadata. -/
theorem Appended.sigs {tok : Str} {p : ReportPart} {md : ReportMetadata}
    {gs gs' : List GroupInfo} {b : Bool} (h : Appended tok p md gs gs' b) (hi : GroupsInv gs)
    (he : EntriesOk gs) (hm : EntriesMisc gs) (hh : HeadText gs) :
    ∀ x ∈ gs', sig x.group = none ∨ x ∈ gs := by
  cases h with
  | empty => intro x hx; exact Or.inr hx
  | fallback => intro x hx; exact Or.inr hx
  | @appended last rest g hf ha =>
    obtain ⟨h1, h2, h3⟩ := sig_append (hm last (by simp)).1 (hi last (by simp)) ha
    intro x hx
    rcases List.mem_cons.mp hx with rfl | hx
    · left; rw [h1]; exact h3 (by simp)
    · right; simp [hx]
  | @rejected last rest g hf ha =>
    obtain ⟨h1, h2, h3⟩ := sig_append (hm last (by simp)).1 (hi last (by simp)) ha
    intro x hx
    rcases List.mem_cons.mp hx with rfl | hx
    · cases hs : sig g with
      | none => left; rfl
      | some g' =>
        right
        have e1 := sig_eq hs
        rw [h1] at hs
        have e2 := sig_eq hs
        rw [← e1, e2]
        simp
    · right; simp [hx]
  | @unknown last rest g rp hf ha hr hfb =>
    intro x hx
    cases rest with
    | nil =>
      simp only [addGroupToResult, List.mem_singleton] at hx
      subst hx
      left; exact skel_fallback hfb
    | cons y rest =>
      simp only [addGroupToResult] at hx
      split at hx
      · rename_i hb
        simp only [Bool.and_eq_true] at hb
        rcases List.mem_cons.mp hx with rfl | hx
        · left; exact skel_fallback hb.2
        · right; simp [hx]
      · rcases List.mem_cons.mp hx with rfl | hx
        · left; exact skel_fallback hfb
        · right; exact List.mem_cons_of_mem _ hx
  | @reAppended last rest g rp g2 hf ha hr hfb ha2 =>
    obtain ⟨h1, h2, h3, h4, h5⟩ := sig_reparse (he last (by simp)) (hi last (by simp))
      (hm last (by simp)) hf (hh last (by simp)) ha hr
    obtain ⟨h6, h7, h8⟩ := sig_append h4 h5 ha2
    intro x hx
    rcases List.mem_cons.mp hx with rfl | hx
    · left; rw [h6]; exact h3
    · right; simp [hx]
  | @reRejected last rest g rp g2 hf ha hr hfb ha2 =>
    obtain ⟨h1, h2, h3, h4, h5⟩ := sig_reparse (he last (by simp)) (hi last (by simp))
      (hm last (by simp)) hf (hh last (by simp)) ha hr
    obtain ⟨h6, h7, h8⟩ := sig_append h4 h5 ha2
    intro x hx
    rcases List.mem_cons.mp hx with rfl | hx
    · left; rw [h6]; exact h3
    · right; simp [hx]
  | @reInvalidated last rest g rp g2 hf ha hr hfb ha2 =>
    obtain ⟨h1, h2, h3, h4, h5⟩ := sig_reparse (he last (by simp)) (hi last (by simp))
      (hm last (by simp)) hf (hh last (by simp)) ha hr
    obtain ⟨h6, h7, h8⟩ := sig_append h4 h5 ha2
    intro x hx
    rcases List.mem_cons.mp hx with rfl | hx
    · left; rfl
    · rcases List.mem_cons.mp hx with rfl | hx
      · left; rw [h6]; exact h3
      · right; simp [hx]

/-- The text of an entry with a correction mark. -/
def MiscText (gi : GroupInfo) : Prop :=
  ∀ m, gi.group = .misc m → m.groupType = .CORRECTED_WEATHER_OBSERVATION →
    MiscGroup.parse gi.rawString gi.reportPart = some m

theorem miscText_of_sig {gi : GroupInfo} (h : sig gi.group = none) : MiscText gi := by
  intro m hm hc
  rw [hm] at h
  simp [sig, hc] at h

theorem miscText_addGroup {gs : List GroupInfo} {g : Group} {p : ReportPart} {s : Str}
    (h : ∀ x ∈ gs, MiscText x) (hg : MiscText { group := g, reportPart := p, rawString := s }) :
    ∀ x ∈ addGroupToResult gs g p s, MiscText x := by
  cases gs with
  | nil => intro x hx; simp only [addGroupToResult, List.mem_singleton] at hx; subst hx; exact hg
  | cons last rest =>
    simp only [addGroupToResult]
    split
    · rename_i hb
      simp only [Bool.and_eq_true] at hb
      intro x hx
      rcases List.mem_cons.mp hx with rfl | hx
      · exact miscText_of_sig (skel_fallback hb.2)
      · exact h x (by simp [hx])
    · intro x hx
      rcases List.mem_cons.mp hx with rfl | hx
      · exact hg
      · exact h x hx

theorem Run.miscText {limit : Nat} {done : List Str} {v : Vars} (h : Run limit done v) :
    ∀ x ∈ v.groups, MiscText x := by
  induction h with
  | start => intro x hx; simp at hx
  | @step _ tok v v' hr _ _ _ hst ih =>
    have app : ∀ {gs b}, Appended tok v.status.getReportPart v.md v.groups gs b →
        ∀ x ∈ gs, MiscText x := by
      intro gs b ha x hx
      rcases ha.sigs hr.inv hr.entriesOk hr.meta.1 hr.headText x hx with h | h
      · exact miscText_of_sig h
      · exact ih x h
    have one : ∀ {p g}, GroupParser.parse tok p v.md = .ok g →
        MiscText { group := g, reportPart := p, rawString := tok } := by
      intro p g hp m hm hc
      simp only at hm
      subst hm
      obtain ⟨-, h5⟩ := GroupParser.parse_first hp
      simpa [recognise, Group.index] using h5
    cases hst with
    | absorbed ha => exact app ha
    | parsed ha hp => exact miscText_addGroup (app ha) (one hp)
    | reparsed ha _ _ _ _ _ _ hp => exact miscText_addGroup (app ha) (one hp)

end Parser

end Metaf
