import Verif.Model.GroupsC
import Verif.Proofs.RegexText
import Verif.Props.Amounts
import Verif.Props.Values
import Verif.Props.MinMax
import Verif.Props.RunwayState

/-!
C55: sea surface temperature and waves.
C58: low, middle and high clouds.
-/

set_option linter.unusedSectionVars false

namespace Metaf.Props

open Metaf.Spec

variable [FloatSem]

/-! ### Sea surface -/

/-- Temperature of the sea surface, which is never written below zero. -/
def SeaTemperatureWritten (s : Str) (t : Temperature) : Prop :=
  (s = c!"//" ∧ t = ⟨none, false, false⟩) ∨ ∃ n, n < 100 ∧ s = decimal 2 n ∧ t = ⟨some n, false, false⟩

/-- Height of waves in decimetres or state of the surface (WMO code table 3700), which stands for the
greatest height in decimetres of that state, or for more than 140 decimetres. -/
def WavesWritten (s : Str) (w : WaveHeight) : Prop :=
  (s = c!"H///" ∧ w = ⟨.WAVE_HEIGHT, none⟩) ∨ (s = c!"S/" ∧ w = ⟨.STATE_OF_SURFACE, none⟩) ∨
  (∃ k n, 1 ≤ k ∧ k ≤ 3 ∧ n < 10 ^ k ∧ s = 'H' :: decimal k n ∧ w = ⟨.WAVE_HEIGHT, some n⟩) ∨
  (∃ n h, (n, h) ∈ [0, 1, 5, 12, 25, 40, 60, 90, 140, 141].zipIdx.map Prod.swap ∧
    s = 'S' :: decimal 1 n ∧ w = ⟨.STATE_OF_SURFACE, some h⟩)

/-- One to three digits or slashes. -/
def WaveDigits (s : Str) : Prop :=
  s = c!"///" ∨ s = c!"/" ∨ ∃ k n, 1 ≤ k ∧ k ≤ 3 ∧ n < 10 ^ k ∧ s = decimal k n

theorem match_waves {w : Str} {c : Caps} :
    Rx.Match ((.d ⬝ .opt .d ⬝ .opt .d) ∥ .lit c!"///" ∥ .chr '/') w c ↔ c = [] ∧ WaveDigits w := by
  simp only [Rx.match_alt, Rx.match_seq, Rx.match_d, Rx.match_opt, Rx.match_lit, Rx.match_chr, WaveDigits]
  constructor
  · rintro (⟨_, _, _, _, ⟨x, hx, rfl, rfl⟩, ⟨_, _, _, _, h1, h2, rfl, rfl⟩, rfl, rfl⟩ | ⟨rfl, rfl⟩ | ⟨rfl, rfl⟩)
    · have one : ∃ n < 10, [x] = decimal 1 n := by
        obtain ⟨n, hn, rfl⟩ := isDigit_iff.mp hx
        exact ⟨n, hn, by simp [decimal, Nat.mod_eq_of_lt hn]⟩
      have two : ∀ y, isDigit y = true → ∃ n < 100, [x, y] = decimal 2 n := by
        intro y hy
        obtain ⟨n, hn, e⟩ := two_digits hx hy
        exact ⟨n, hn, by rw [← e]⟩
      rcases h1 with ⟨y, hy, rfl, rfl⟩ | ⟨rfl, rfl⟩ <;> rcases h2 with ⟨z, hz, rfl, rfl⟩ | ⟨rfl, rfl⟩
      · refine ⟨rfl, Or.inr (Or.inr ?_)⟩
        have : Rx.Match (.d ⬝ .d ⬝ .d) ([x] ++ ([y] ++ [z])) ([] ++ [] ++ []) := by
          simp only [Rx.match_seq, Rx.match_d]
          exact ⟨_, _, [], [], ⟨x, hx, rfl, rfl⟩, ⟨_, _, [], [], ⟨y, hy, rfl, rfl⟩, ⟨z, hz, rfl, rfl⟩, rfl, rfl⟩, rfl, rfl⟩
        obtain ⟨-, n, hn, e⟩ := Rx.match_digits3.mp this
        exact ⟨3, n, by decide, by decide, hn, e⟩
      · obtain ⟨n, hn, e⟩ := two y hy
        exact ⟨rfl, Or.inr (Or.inr ⟨2, n, by decide, by decide, hn, e⟩)⟩
      · obtain ⟨n, hn, e⟩ := two z hz
        exact ⟨rfl, Or.inr (Or.inr ⟨2, n, by decide, by decide, hn, e⟩)⟩
      · obtain ⟨n, hn, e⟩ := one
        exact ⟨rfl, Or.inr (Or.inr ⟨1, n, by decide, by decide, hn, e⟩)⟩
    · exact ⟨rfl, Or.inl rfl⟩
    · exact ⟨rfl, Or.inr (Or.inl rfl)⟩
  · rintro ⟨rfl, rfl | rfl | ⟨k, n, h1, h3, hn, rfl⟩⟩
    · exact Or.inr (Or.inl ⟨rfl, rfl⟩)
    · exact Or.inr (Or.inr ⟨rfl, rfl⟩)
    · left
      obtain rfl | rfl | rfl : k = 1 ∨ k = 2 ∨ k = 3 := by omega
      · obtain ⟨x, hx, e, -⟩ := Rx.match_d.mp (Rx.match_digits1.mpr ⟨rfl, n, hn, rfl⟩)
        rw [e]
        exact ⟨_, [], [], [], ⟨x, hx, rfl, rfl⟩, ⟨[], [], [], [], Or.inr ⟨rfl, rfl⟩, Or.inr ⟨rfl, rfl⟩, rfl, rfl⟩, rfl, rfl⟩
      · obtain ⟨a, b, ha, hb, e⟩ := decimal_two_digits n
        rw [e]
        exact ⟨[a], [b], [], [], ⟨a, ha, rfl, rfl⟩, ⟨[b], [], [], [], Or.inl ⟨b, hb, rfl, rfl⟩, Or.inr ⟨rfl, rfl⟩, rfl, rfl⟩, rfl, rfl⟩
      · have := Rx.match_digits3.mpr ⟨rfl, n, hn, rfl⟩
        simp only [Rx.match_seq, Rx.match_d] at this
        obtain ⟨u, v, ca, cb, h1, ⟨u', v', ca', cb', h2, h3, e3, e4⟩, e1, e2⟩ := this
        exact ⟨u, v, ca, cb, h1, ⟨u', v', ca', cb', Or.inl h2, Or.inl h3, e3, e4⟩, e1, e2⟩

/-- Forms of sea surface. -/
def SeaOk (f : Str × Char × Str) : Prop :=
  TwoOrMissing f.1 ∧ (f.2.1 = 'H' ∨ f.2.1 = 'S') ∧ WaveDigits f.2.2

def seaText (f : Str × Char × Str) : Str := c!"W" ++ f.1 ++ c!"/" ++ [f.2.1] ++ f.2.2

def seaCaps (f : Str × Char × Str) : Caps := [(2, f.2.1 :: f.2.2), (1, f.1)]

theorem match_sea (s : Str) (c : Caps) : SeaSurfaceGroup.rgx.Match s c ↔
    ∃ f, SeaOk f ∧ s = seaText f ∧ c = seaCaps f := by
  have h2 : ∀ {w : Str} {c : Caps}, Rx.Match ((.d ⬝ .d) ∥ .lit c!"//") w c ↔ c = [] ∧ TwoOrMissing w :=
    match_two
  rw [SeaSurfaceGroup.rgx]
  simp only [Rx.match_seq (a := .chr 'W'), Rx.match_seq (a := .cap 1 _), Rx.match_seq (a := .chr '/'),
    Rx.match_seq (a := .oneOf _), Rx.match_cap, ↓h2, ↓match_waves, Rx.match_chr, Rx.match_oneOf,
    List.mem_cons, List.not_mem_nil, or_false]
  constructor
  · rintro ⟨_, _, _, _, ⟨rfl, rfl⟩, ⟨_, _, _, _, ⟨_, ⟨rfl, ht⟩, rfl⟩, ⟨_, _, _, _, ⟨rfl, rfl⟩,
      ⟨_, ⟨_, _, _, _, ⟨x, hx, rfl, rfl⟩, ⟨rfl, hw⟩, rfl, rfl⟩, rfl⟩, rfl, rfl⟩, rfl, rfl⟩, rfl, rfl⟩
    exact ⟨(_, x, _), ⟨ht, hx, hw⟩, by simp [seaText], rfl⟩
  · rintro ⟨⟨t, x, w⟩, ⟨ht, hx, hw⟩, rfl, rfl⟩
    exact ⟨_, _, _, _, ⟨rfl, rfl⟩, ⟨t, _, _, _, ⟨_, ⟨rfl, ht⟩, rfl⟩, ⟨_, _, _, _, ⟨rfl, rfl⟩,
      ⟨_, ⟨_, _, _, _, ⟨x, hx, rfl, rfl⟩, ⟨rfl, hw⟩, rfl, rfl⟩, rfl⟩, rfl, rfl⟩, rfl, rfl⟩,
      by simp [seaText], rfl⟩

theorem sea_inj (f f' : Str × Char × Str) (h : SeaOk f) (h' : SeaOk f') (e : seaText f = seaText f') :
    seaCaps f = seaCaps f' := by
  obtain ⟨t, x, w⟩ := f
  obtain ⟨t', x', w'⟩ := f'
  have l := two_length h.1
  have l' := two_length h'.1
  simp only [seaText, List.append_assoc, List.cons_append, List.nil_append, List.cons.injEq, true_and] at e
  obtain ⟨rfl, e⟩ := List.append_inj e (by simpa using l.trans l'.symm)
  obtain ⟨rfl, rfl⟩ : x = x' ∧ w = w' := by simpa using e
  rfl

/-- C55: a text in the body of a weather report is recognised as sea surface exactly if it is `W`, a
temperature, a slash and height of waves or state of the surface, and the group holds what is
written. -/
theorem C55_sea_surface (s : Str) (g : SeaSurfaceGroup) :
    SeaSurfaceGroup.parse s .METAR = some g ↔
      ∃ a b, s = c!"W" ++ a ++ c!"/" ++ b ∧ SeaTemperatureWritten a g.t ∧ WavesWritten b g.wh := by
  have hr := regexMatch_form match_sea sea_inj
  have ht : ∀ a t, TwoOrMissing a → (Temperature.fromString a = some t ↔ SeaTemperatureWritten a t) := by
    intro a t ha
    rw [C27_two_digits]
    refine ⟨?_, fun h => h.elim Or.inl (fun h => Or.inr (Or.inl h))⟩
    rintro (h | h | ⟨n, -, rfl, -⟩)
    · exact Or.inl h
    · exact Or.inr h
    · have := two_length ha
      simp [decimal_length] at this
  have hw : ∀ b w, WaveHeight.fromString b = some w ↔ WavesWritten b w := C39_wave_height
  have two : ∀ {a t}, SeaTemperatureWritten a t → TwoOrMissing a := by
    rintro a t (⟨rfl, -⟩ | ⟨n, hn, rfl, -⟩)
    · exact Or.inl rfl
    · exact Or.inr ⟨n, hn, rfl⟩
  have waves : ∀ {b w}, WavesWritten b w → ∃ x r, b = x :: r ∧ (x = 'H' ∨ x = 'S') ∧ WaveDigits r := by
    rintro b w (⟨rfl, -⟩ | ⟨rfl, -⟩ | ⟨k, n, h1, h3, hn, rfl, -⟩ | ⟨n, h, hn, rfl, -⟩)
    · exact ⟨_, _, rfl, Or.inl rfl, Or.inl rfl⟩
    · exact ⟨_, _, rfl, Or.inr rfl, Or.inr (Or.inl rfl)⟩
    · exact ⟨_, _, rfl, Or.inl rfl, Or.inr (Or.inr ⟨k, n, h1, h3, hn, rfl⟩)⟩
    · refine ⟨_, _, rfl, Or.inr rfl, Or.inr (Or.inr ⟨1, n, by decide, by decide, ?_, rfl⟩)⟩
      simp at hn
      omega
  constructor
  · intro h
    rw [SeaSurfaceGroup.parse, if_neg (by decide)] at h
    cases hm : regexMatch SeaSurfaceGroup.rgx s with
    | none => rw [hm] at h; cases h
    | some m =>
      obtain ⟨f, hf, rfl, rfl⟩ := (hr s m).mp hm
      rw [hm] at h
      have e1 : (seaCaps f).str 1 = f.1 := rfl
      have e2 : (seaCaps f).str 2 = f.2.1 :: f.2.2 := rfl
      simp only [e1, e2] at h
      cases h1 : Temperature.fromString f.1 with
      | none => rw [h1] at h; cases h
      | some t =>
        cases h2 : WaveHeight.fromString (f.2.1 :: f.2.2) with
        | none => rw [h1, h2] at h; cases h
        | some w =>
          rw [h1, h2] at h
          obtain rfl := Option.some.inj h
          exact ⟨f.1, f.2.1 :: f.2.2, by simp [seaText], (ht _ _ hf.1).mp h1, (hw _ _).mp h2⟩
  · rintro ⟨a, b, rfl, ha, hb⟩
    obtain ⟨x, r, rfl, hx, hd⟩ := waves hb
    have hm := (hr (c!"W" ++ a ++ c!"/" ++ x :: r) (seaCaps (a, x, r))).mpr
      ⟨(a, x, r), ⟨two ha, hx, hd⟩, by simp [seaText], rfl⟩
    rw [SeaSurfaceGroup.parse, if_neg (by decide), hm]
    have e1 : (seaCaps (a, x, r)).str 1 = a := rfl
    have e2 : (seaCaps (a, x, r)).str 2 = x :: r := rfl
    simp only [e1, e2, (ht _ _ (two ha)).mpr ha, (hw _ _).mpr hb]

/-- C55: elsewhere sea surface is not looked for, and it takes no further text. -/
theorem C55_elsewhere (s : Str) (part : ReportPart) (h : part ≠ .METAR) :
    SeaSurfaceGroup.parse s part = none := by
  simp [SeaSurfaceGroup.parse, h]

theorem C55_append (s : Str) (g : SeaSurfaceGroup) : g.append s = (g, .NOT_APPENDED) := rfl

example : ∃ g, SeaSurfaceGroup.parse c!"W12/H75" .METAR = some g :=
  ⟨⟨⟨some 12, false, false⟩, ⟨.WAVE_HEIGHT, some 75⟩⟩, (C55_sea_surface _ _).mpr ⟨c!"12", c!"H75", rfl,
    Or.inr ⟨12, by decide, rfl, rfl⟩,
    Or.inr (Or.inr (Or.inl ⟨2, 75, by decide, by decide, by decide, rfl, rfl⟩))⟩⟩

/-! ### Low, middle and high clouds -/

/-- Low clouds by their code (WMO code table 0513). -/
def lowCode : List LowLayer :=
  [.NONE, .CU_HU_CU_FR, .CU_MED_CU_CON, .CB_CAL, .SC_CUGEN, .SC_NON_CUGEN, .ST_NEB_ST_FR,
   .ST_FR_CU_FR_PANNUS, .CU_SC_NON_CUGEN_DIFFERENT_LEVELS, .CB_CAP]

/-- Middle clouds by their code (WMO code table 0515). -/
def midCode : List MidLayer :=
  [.NONE, .AS_TR, .AS_OP_NS, .AC_TR, .AC_TR_LEN_PATCHES, .AC_TR_AC_OP_SPREADING, .AC_CUGEN_AC_CBGEN,
   .AC_DU_AC_OP_AC_WITH_AS_OR_NS, .AC_CAS_AC_FLO, .AC_OF_CHAOTIC_SKY]

/-- High clouds by their code (WMO code table 0509). -/
def highCode : List HighLayer :=
  [.NONE, .CI_FIB_CI_UNC, .CI_SPI_CI_CAS_CI_FLO, .CI_SPI_CBGEN, .CI_FIB_CI_UNC_SPREADING,
   .CI_CS_LOW_ABOVE_HORIZON, .CI_CS_HIGH_ABOVE_HORIZON, .CS_NEB_CS_FIB_COVERING_ENTIRE_SKY, .CS, .CC]

theorem match_lmh (s : Str) (c : Caps) : LowMidHighCloudGroup.rgx.Match s c ↔
    ∃ f : Char × Char × Char, ((f.1 = '/' ∨ isDigit f.1 = true) ∧ (f.2.1 = '/' ∨ isDigit f.2.1 = true) ∧
      (f.2.2 = '/' ∨ isDigit f.2.2 = true)) ∧ s = ['8', '/', f.1, f.2.1, f.2.2] ∧
      c = [(3, [f.2.2]), (2, [f.2.1]), (1, [f.1])] := by
  rw [LowMidHighCloudGroup.rgx]
  simp only [Rx.match_seq (a := .cap _ _), Rx.match_seq (a := .lit _), Rx.match_cap, Rx.match_lit, match_digitOrSlash]
  constructor
  · rintro ⟨_, _, _, _, ⟨rfl, rfl⟩, ⟨_, _, _, _, ⟨_, ⟨x, hx, rfl, rfl⟩, rfl⟩, ⟨_, _, _, _,
      ⟨_, ⟨y, hy, rfl, rfl⟩, rfl⟩, ⟨_, ⟨z, hz, rfl, rfl⟩, rfl⟩, rfl, rfl⟩, rfl, rfl⟩, rfl, rfl⟩
    exact ⟨(x, y, z), ⟨hx, hy, hz⟩, rfl, rfl⟩
  · rintro ⟨⟨x, y, z⟩, ⟨hx, hy, hz⟩, rfl, rfl⟩
    exact ⟨_, [x, y, z], [], _, ⟨rfl, rfl⟩, ⟨[x], [y, z], _, _, ⟨_, ⟨x, hx, rfl, rfl⟩, rfl⟩, ⟨[y], [z], _, _,
      ⟨_, ⟨y, hy, rfl, rfl⟩, rfl⟩, ⟨_, ⟨z, hz, rfl, rfl⟩, rfl⟩, rfl, rfl⟩, rfl, rfl⟩, rfl, rfl⟩

theorem digitOrSlash_cases {c : Char} (h : c = '/' ∨ isDigit c = true) :
    c = '/' ∨ ∃ k < 10, c = Nat.digitChar k := by
  rcases h with h | h
  · exact Or.inl h
  · obtain ⟨k, hk, rfl⟩ := isDigit_iff.mp h
    exact Or.inr ⟨k, hk, rfl⟩

theorem code_iff {α : Type} {table : List α} {missing : α} {f : Char → α} (hl : table.length = 10)
    (hf : ∀ k < 10, table[k]? = some (f (Nat.digitChar k))) (hm : f '/' = missing) {c : Char}
    (h : c = '/' ∨ isDigit c = true) (x : α) : f c = x ↔ CodeWritten table missing c x := by
  constructor
  · rintro rfl
    rcases digitOrSlash_cases h with rfl | ⟨k, hk, rfl⟩
    · exact Or.inl ⟨rfl, hm⟩
    · exact Or.inr ⟨k, hf k hk, rfl⟩
  · rintro (⟨rfl, rfl⟩ | ⟨k, hk, rfl⟩)
    · exact hm
    · have hk10 : k < 10 := hl ▸ (List.getElem?_eq_some_iff.mp hk).1
      rw [hf k hk10] at hk
      exact Option.some.inj hk

/-- C58: a text in remarks is recognised as low, middle and high clouds exactly if it is `8/` and three
codes, and the group tells the clouds of these codes, a slash being not observable. -/
theorem C58_clouds (s : Str) (g : LowMidHighCloudGroup) :
    LowMidHighCloudGroup.parse s .RMK = some g ↔
      ∃ a b c, s = ['8', '/', a, b, c] ∧ CodeWritten lowCode .NOT_OBSERVABLE a g.cloudLowLayer ∧
        CodeWritten midCode .NOT_OBSERVABLE b g.cloudMidLayer ∧
        CodeWritten highCode .NOT_OBSERVABLE c g.cloudHighLayer := by
  have hr := regexMatch_form match_lmh (by
    rintro ⟨x, y, z⟩ ⟨x', y', z'⟩ - - e
    simp only [List.cons.injEq, true_and, and_true] at e
    obtain ⟨rfl, rfl, rfl⟩ := e
    rfl)
  have low := fun {c : Char} h x => code_iff (table := lowCode) (missing := .NOT_OBSERVABLE)
    (f := LowMidHighCloudGroup.lowLayerFromChar) rfl (by decide) rfl (c := c) h x
  have mid := fun {c : Char} h x => code_iff (table := midCode) (missing := .NOT_OBSERVABLE)
    (f := LowMidHighCloudGroup.midLayerFromChar) rfl (by decide) rfl (c := c) h x
  have high := fun {c : Char} h x => code_iff (table := highCode) (missing := .NOT_OBSERVABLE)
    (f := LowMidHighCloudGroup.highLayerFromChar) rfl (by decide) rfl (c := c) h x
  constructor
  · intro h
    rw [LowMidHighCloudGroup.parse, if_neg (by decide)] at h
    cases hm : regexMatch LowMidHighCloudGroup.rgx s with
    | none => rw [hm] at h; cases h
    | some m =>
      obtain ⟨⟨x, y, z⟩, ⟨hx, hy, hz⟩, rfl, rfl⟩ := (hr s m).mp hm
      rw [hm] at h
      obtain rfl := Option.some.inj h
      exact ⟨x, y, z, rfl, (low hx _).mp rfl, (mid hy _).mp rfl, (high hz _).mp rfl⟩
  · rintro ⟨a, b, c, rfl, ha, hb, hc⟩
    have da := codeWritten_digit (by decide) ha
    have db := codeWritten_digit (by decide) hb
    have dc := codeWritten_digit (by decide) hc
    have hm := (hr ['8', '/', a, b, c] [(3, [c]), (2, [b]), (1, [a])]).mpr ⟨(a, b, c), ⟨da, db, dc⟩, rfl, rfl⟩
    rw [LowMidHighCloudGroup.parse, if_neg (by decide), hm]
    obtain ⟨l, m, h⟩ := g
    simp only at ha hb hc
    rw [← low da] at ha
    rw [← mid db] at hb
    rw [← high dc] at hc
    subst ha hb hc
    rfl

/-- C58: elsewhere these clouds are not looked for, and they take no further text. -/
theorem C58_elsewhere (s : Str) (part : ReportPart) (h : part ≠ .RMK) :
    LowMidHighCloudGroup.parse s part = none := by
  simp [LowMidHighCloudGroup.parse, h]

theorem C58_append (s : Str) (g : LowMidHighCloudGroup) : g.append s = (g, .NOT_APPENDED) := rfl

/-- C58: a recognised group is valid exactly if nothing is reported above a layer through which one
cannot see: after a slash only slashes follow. -/
theorem C58_valid (a b c : Char) (g : LowMidHighCloudGroup)
    (h : LowMidHighCloudGroup.parse ['8', '/', a, b, c] .RMK = some g) :
    g.isValid = true ↔ (a = '/' → b = '/') ∧ (b = '/' → c = '/') := by
  obtain ⟨a', b', c', e, ha, hb, hc⟩ := (C58_clouds _ _).mp h
  simp only [List.cons.injEq, true_and, and_true] at e
  obtain ⟨rfl, rfl, rfl⟩ := e
  have slash : ∀ {α : Type} {table : List α} {missing x : α} {c : Char}, missing ∉ table →
      CodeWritten table missing c x → table.length ≤ 10 → (x = missing ↔ c = '/') := by
    intro α table missing x c hn h hl
    rcases h with ⟨rfl, rfl⟩ | ⟨k, hk, rfl⟩
    · simp
    · have hlt := (List.getElem?_eq_some_iff.mp hk).1
      refine ⟨?_, fun e => absurd e (digitChar_ne rfl (by omega))⟩
      rintro rfl
      exact absurd (List.mem_of_getElem? hk) hn
  have sa := slash (by decide) ha (by decide)
  have sb := slash (by decide) hb (by decide)
  have sc := slash (by decide) hc (by decide)
  rw [← sa, ← sb, ← sc, LowMidHighCloudGroup.isValid]
  split
  · rename_i h; simp [h.1, h.2]
  · rename_i h1
    split
    · rename_i h; simp [h.1, h.2]
    · rename_i h2
      simp only [not_and, not_not] at h1 h2
      exact ⟨fun _ => ⟨h1, h2⟩, fun _ => rfl⟩

example : ∃ g, LowMidHighCloudGroup.parse c!"8/60/" .RMK = some g ∧ g.isValid = true := by
  have h := (C58_clouds c!"8/60/" ⟨.ST_NEB_ST_FR, .NONE, .NOT_OBSERVABLE⟩).mpr
    ⟨'6', '0', '/', rfl, Or.inr ⟨6, rfl, rfl⟩, Or.inr ⟨0, rfl, rfl⟩, Or.inl ⟨rfl, rfl⟩⟩
  exact ⟨_, h, (C58_valid _ _ _ _ h).mpr (by decide)⟩

end Metaf.Props
