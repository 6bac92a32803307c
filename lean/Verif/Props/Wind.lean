import Verif.Model.GroupsA
import Verif.Spec.Wind
import Verif.Proofs.RegexText
import Verif.Proofs.Util
import Verif.Props.Values
import Verif.Props.DistanceText

/-!
C46: wind groups.
-/

set_option linter.unusedSectionVars false

namespace Metaf.Props

open Metaf.Spec WindGroup

variable [FloatSem]

theorem speedText_digits (n : Nat) : ∀ c ∈ speedText n, isDigit c = true := by
  intro c hc
  unfold speedText at hc
  split at hc <;> exact decimal_digits _ _ c hc

theorem match_speed {w : Str} {c : Caps} :
    speedRx.Match w c ↔ c = [] ∧ ∃ n < 1000, w = speedText n := by
  simp only [speedRx, ↓Rx.match_digits2, Rx.match_seq, Rx.match_opt, Rx.match_set]
  constructor
  · rintro ⟨_, _, _, _, ⟨x, hx, rfl, rfl⟩ | ⟨rfl, rfl⟩, ⟨rfl, n, hn, rfl⟩, rfl, rfl⟩
    · have hx' : '1' ≤ x ∧ x ≤ '9' := by
        simp only [Rx.inSet, List.any_cons, List.any_nil, Bool.or_false, Bool.and_eq_true,
          decide_eq_true_eq] at hx
        exact hx
      have hd : isDigit x = true := by
        simp only [isDigit, Bool.and_eq_true, decide_eq_true_eq]
        exact ⟨le_trans (by decide) hx'.1, hx'.2⟩
      obtain ⟨a, b, ha, hb, hab⟩ := decimal_two_digits n
      obtain ⟨k, hk, hkd⟩ := three_digits hd ha hb
      refine ⟨rfl, k, hk, ?_⟩
      have hk100 : 100 ≤ k := by
        by_contra hlt
        rw [decimal_three] at hkd
        simp only [List.cons.injEq] at hkd
        have : k / 10 / 10 % 10 = 0 := by omega
        rw [this] at hkd
        rw [hkd.1] at hx'
        exact absurd hx'.1 (by decide)
      unfold speedText
      rw [if_neg (by omega), hab, ← hkd]
      rfl
    · exact ⟨rfl, n, by omega, by rw [speedText, if_pos hn]; rfl⟩
  · rintro ⟨rfl, n, hn, rfl⟩
    unfold speedText
    split
    · rename_i h
      exact ⟨[], _, [], [], Or.inr ⟨rfl, rfl⟩, ⟨rfl, n, h, rfl⟩, rfl, rfl⟩
    · rename_i h
      obtain ⟨a, b, c, ha, hb, hc, habc⟩ := decimal_three_digits n
      obtain ⟨k, hk, hkd⟩ := two_digits hb hc
      refine ⟨[a], [b, c], [], [], Or.inl ⟨a, ?_, rfl, rfl⟩, ⟨rfl, k, hk, hkd⟩, habc, rfl⟩
      rw [decimal_three] at habc
      simp only [List.cons.injEq] at habc
      have : ∀ m < 10, m ≠ 0 → Rx.inSet [('1', '9')] (Nat.digitChar m) = true := by decide
      rw [← habc.1]
      exact this _ (Nat.mod_lt _ (by decide)) (by omega)

/-- Text of a unit which the regular expression lets through. -/
def UnitLike (u : Str) : Prop :=
  ∃ a ∈ c!"KM", ∃ b ∈ c!"TMP", u = [a, b] ∨ ∃ d ∈ c!"HS", u = [a, b, d]

/-- Wind as seen by the regular expression. -/
structure WindForm where
  shear : Option Nat
  dir : WindDirection
  speed : Option Nat
  gust : Option Nat
  unit : Str

def WindForm.Ok (w : WindForm) : Prop :=
  (∀ h ∈ w.shear, h < 1000) ∧ w.dir.Ok ∧ (∀ n ∈ w.speed, n < 1000) ∧ (∀ n ∈ w.gust, n < 1000) ∧
    UnitLike w.unit

def shearText : Option Nat → Str
  | some h => c!"WS" ++ decimal 3 h ++ c!"/"
  | none => []

def speedPart : Option Nat → Str
  | some n => speedText n
  | none => c!"//"

def gustPart : Option Nat → Str
  | some n => c!"G" ++ speedText n
  | none => []

def WindForm.text (w : WindForm) : Str :=
  shearText w.shear ++ (w.dir.text ++ (speedPart w.speed ++ (gustPart w.gust ++ w.unit)))

def shearCaps : Option Nat → Caps
  | some h => [(1, decimal 3 h)]
  | none => []

def gustCaps : Option Nat → Caps
  | some n => [(4, speedText n)]
  | none => []

def WindForm.caps (w : WindForm) : Caps :=
  [(5, w.unit)] ++ gustCaps w.gust ++ [(3, speedPart w.speed)] ++ [(2, w.dir.text)] ++ shearCaps w.shear

theorem match_unit {w : Str} {c : Caps} :
    Rx.Match (.oneOf c!"KM" ⬝ .oneOf c!"TMP" ⬝ .opt (.oneOf c!"HS")) w c ↔ c = [] ∧ UnitLike w := by
  simp only [Rx.match_seq, Rx.match_opt, Rx.match_oneOf]
  constructor
  · rintro ⟨_, _, _, _, ⟨a, ha, rfl, rfl⟩, ⟨_, _, _, _, ⟨b, hb, rfl, rfl⟩,
      ⟨d, hd, rfl, rfl⟩ | ⟨rfl, rfl⟩, rfl, rfl⟩, rfl, rfl⟩
    · exact ⟨rfl, a, ha, b, hb, Or.inr ⟨d, hd, rfl⟩⟩
    · exact ⟨rfl, a, ha, b, hb, Or.inl rfl⟩
  · rintro ⟨rfl, a, ha, b, hb, rfl | ⟨d, hd, rfl⟩⟩
    · exact ⟨[a], [b], [], [], ⟨a, ha, rfl, rfl⟩, ⟨[b], [], [], [], ⟨b, hb, rfl, rfl⟩,
        Or.inr ⟨rfl, rfl⟩, rfl, rfl⟩, rfl, rfl⟩
    · exact ⟨[a], [b, d], [], [], ⟨a, ha, rfl, rfl⟩, ⟨[b], [d], [], [], ⟨b, hb, rfl, rfl⟩,
        Or.inl ⟨d, hd, rfl, rfl⟩, rfl, rfl⟩, rfl, rfl⟩

theorem match_direction {w : Str} {c : Caps} :
    Rx.Match ((.d ⬝ .d ⬝ .chr '0') ∥ .lit c!"VRB" ∥ .lit c!"///") w c ↔
      c = [] ∧ ∃ d : WindDirection, d.Ok ∧ w = d.text := by
  rw [Rx.match_alt, Rx.match_alt, Rx.match_tens, Rx.match_lit, Rx.match_lit]
  constructor
  · rintro (⟨rfl, n, hn, rfl⟩ | ⟨rfl, rfl⟩ | ⟨rfl, rfl⟩)
    · exact ⟨rfl, .tens n, hn, rfl⟩
    · exact ⟨rfl, .varying, trivial, rfl⟩
    · exact ⟨rfl, .missing, trivial, rfl⟩
  · rintro ⟨rfl, d, hd, rfl⟩
    cases d with
    | tens n => exact Or.inl ⟨rfl, n, hd, rfl⟩
    | varying => exact Or.inr (Or.inl ⟨rfl, rfl⟩)
    | missing => exact Or.inr (Or.inr ⟨rfl, rfl⟩)

theorem wind_match (s : Str) (c : Caps) :
    windRgx.Match s c ↔ ∃ f : WindForm, f.Ok ∧ s = f.text ∧ c = f.caps := by
  unfold windRgx
  rw [Rx.match_seq]
  simp only [↓match_unit, ↓match_direction, ↓match_speed, ↓Rx.match_lit, ↓Rx.match_digits3, Rx.match_seq,
    Rx.match_opt, Rx.match_cap, Rx.match_alt, Rx.match_chr]
  constructor
  · rintro ⟨t1, _, c1, _, hsh, ⟨_, _, _, _, ⟨_, ⟨rfl, d, hd, rfl⟩, rfl⟩, ⟨t3, _, _, _, ⟨c3, hsp, rfl⟩,
      ⟨t4, u, c4, _, hg, ⟨_, ⟨rfl, hu⟩, rfl⟩, rfl, rfl⟩, rfl, rfl⟩, rfl, rfl⟩, rfl, rfl⟩
    obtain ⟨sh, hsh1, rfl, rfl⟩ : ∃ sh : Option Nat, (∀ h ∈ sh, h < 1000) ∧ t1 = shearText sh ∧
        c1 = shearCaps sh := by
      rcases hsh with ⟨_, _, _, _, ⟨rfl, rfl⟩, ⟨_, _, _, _, ⟨_, ⟨rfl, n, hn, rfl⟩, rfl⟩, ⟨rfl, rfl⟩, rfl, rfl⟩,
        rfl, rfl⟩ | ⟨rfl, rfl⟩
      · exact ⟨some n, by rintro _ ⟨⟩; exact hn, by simp [shearText], rfl⟩
      · exact ⟨none, by simp, rfl, rfl⟩
    obtain ⟨sp, hsp1, rfl, rfl⟩ : ∃ sp : Option Nat, (∀ h ∈ sp, h < 1000) ∧ t3 = speedPart sp ∧
        c3 = [] := by
      rcases hsp with ⟨rfl, n, hn, rfl⟩ | ⟨rfl, rfl⟩
      · exact ⟨some n, by rintro _ ⟨⟩; exact hn, rfl, rfl⟩
      · exact ⟨none, by simp, rfl, rfl⟩
    obtain ⟨gu, hgu1, rfl, rfl⟩ : ∃ gu : Option Nat, (∀ h ∈ gu, h < 1000) ∧ t4 = gustPart gu ∧
        c4 = gustCaps gu := by
      rcases hg with ⟨_, _, _, _, ⟨rfl, rfl⟩, ⟨_, ⟨rfl, n, hn, rfl⟩, rfl⟩, rfl, rfl⟩ | ⟨rfl, rfl⟩
      · exact ⟨some n, by rintro _ ⟨⟩; exact hn, rfl, rfl⟩
      · exact ⟨none, by simp, rfl, rfl⟩
    refine ⟨⟨sh, d, sp, gu, _⟩, ⟨hsh1, hd, hsp1, hgu1, hu⟩, rfl, ?_⟩
    simp [WindForm.caps]
  · rintro ⟨⟨sh, d, sp, gu, u⟩, ⟨h1, h2, h3, h4, h5⟩, rfl, rfl⟩
    simp only at h1 h2 h3 h4 h5
    refine ⟨shearText sh, _, shearCaps sh, _, ?_,
      ⟨d.text, _, [(2, d.text)], _, ⟨[], ⟨rfl, d, h2, rfl⟩, rfl⟩,
      ⟨speedPart sp, _, [(3, speedPart sp)], _, ⟨[], ?_, rfl⟩,
      ⟨gustPart gu, u, gustCaps gu, [(5, u)], ?_,
        ⟨[], ⟨rfl, h5⟩, rfl⟩, rfl, rfl⟩, rfl, rfl⟩, rfl, rfl⟩, rfl, ?_⟩
    · cases sh with
      | none => exact Or.inr ⟨rfl, rfl⟩
      | some n => exact Or.inl ⟨c!"WS", decimal 3 n ++ c!"/", [], [(1, decimal 3 n)], ⟨rfl, rfl⟩,
          ⟨decimal 3 n, c!"/", [(1, decimal 3 n)], [], ⟨[], ⟨rfl, n, h1 n rfl, rfl⟩, rfl⟩, ⟨rfl, rfl⟩, rfl, rfl⟩,
          by simp [shearText], rfl⟩
    · cases sp with
      | none => exact Or.inr ⟨rfl, rfl⟩
      | some n => exact Or.inl ⟨rfl, n, h3 n rfl, rfl⟩
    · cases gu with
      | none => exact Or.inr ⟨rfl, rfl⟩
      | some n => exact Or.inl ⟨c!"G", speedText n, [], [(4, speedText n)], ⟨rfl, rfl⟩,
          ⟨[], ⟨rfl, n, h4 n rfl, rfl⟩, rfl⟩, rfl, rfl⟩
    · simp [WindForm.caps]

theorem unitLike_head {u : Str} (h : UnitLike u) : ∃ a r, u = a :: r ∧ (a = 'K' ∨ a = 'M') := by
  obtain ⟨a, ha, b, -, rfl | ⟨d, -, rfl⟩⟩ := h <;> exact ⟨a, _, rfl, by simpa using ha⟩

theorem dirText_length (d : WindDirection) : d.text.length = 3 := by
  cases d <;> rfl

theorem dirText_head (d : WindDirection) : ∃ a r, d.text = a :: r ∧ a ≠ 'W' := by
  cases d with
  | tens n =>
    obtain ⟨a, b, c, ha, -, -, h⟩ := decimal_three_digits (10 * n)
    exact ⟨a, _, h, by rintro rfl; revert ha; decide⟩
  | varying => exact ⟨_, _, rfl, by decide⟩
  | missing => exact ⟨_, _, rfl, by decide⟩

theorem speedText_head (n : Nat) : ∃ a r, speedText n = a :: r ∧ isDigit a = true := by
  have h := speedText_digits n
  unfold speedText at *
  split at h
  · rw [if_pos (by assumption)]
    exact ⟨_, _, decimal_two n, h _ (by rw [decimal_two]; simp)⟩
  · rw [if_neg (by assumption)]
    exact ⟨_, _, decimal_three n, h _ (by rw [decimal_three]; simp)⟩

/-- What follows the speed does not begin with a digit. -/
theorem rest_head {gu : Option Nat} {u : Str} (hu : UnitLike u) :
    ∀ c ∈ (gustPart gu ++ u).head?, isDigit c = false := by
  obtain ⟨a, r, rfl, ha⟩ := unitLike_head hu
  cases gu with
  | none =>
    intro c hc
    simp only [gustPart, List.nil_append, List.head?_cons, Option.mem_def, Option.some.injEq] at hc
    subst hc
    rcases ha with rfl | rfl <;> rfl
  | some n =>
    intro c hc
    simp only [gustPart, List.cons_append, List.head?_cons, Option.mem_def, Option.some.injEq] at hc
    subst hc
    rfl

theorem speedPart_inj {a b : Option Nat} {x y : Str} (hx : ∀ c ∈ x.head?, isDigit c = false)
    (hy : ∀ c ∈ y.head?, isDigit c = false) (h : speedPart a ++ x = speedPart b ++ y) :
    speedPart a = speedPart b ∧ x = y := by
  cases a with
  | none =>
    cases b with
    | none => exact ⟨rfl, List.append_cancel_left h⟩
    | some m =>
      obtain ⟨c, r, hc, hd⟩ := speedText_head m
      simp only [speedPart, hc, List.cons_append, List.cons.injEq] at h
      rw [← h.1] at hd
      cases hd
  | some n =>
    cases b with
    | none =>
      obtain ⟨c, r, hc, hd⟩ := speedText_head n
      simp only [speedPart, hc, List.cons_append, List.cons.injEq] at h
      rw [h.1] at hd
      cases hd
    | some m => exact digits_prefix (speedText_digits n) (speedText_digits m) hx hy h

theorem wind_inj {f g : WindForm} (hf : f.Ok) (hg : g.Ok) (h : f.text = g.text) : f.caps = g.caps := by
  obtain ⟨sh, d, sp, gu, u⟩ := f
  obtain ⟨sh', d', sp', gu', u'⟩ := g
  obtain ⟨-, -, -, -, hu⟩ := hf
  obtain ⟨-, -, -, -, hu'⟩ := hg
  simp only [WindForm.text] at h hu hu'
  obtain ⟨hs, h⟩ : shearCaps sh =
      shearCaps sh' ∧
      d.text ++ (speedPart sp ++ (gustPart gu ++ u)) =
        d'.text ++ (speedPart sp' ++ (gustPart gu' ++ u')) := by
    obtain ⟨a, r, ha, hw⟩ := dirText_head d
    obtain ⟨a', r', ha', hw'⟩ := dirText_head d'
    cases sh with
    | none =>
      cases sh' with
      | none => exact ⟨rfl, h⟩
      | some n' =>
        rw [ha] at h
        simp only [shearText, List.nil_append, List.cons_append, List.cons.injEq] at h
        exact absurd h.1 hw
    | some n =>
      cases sh' with
      | none =>
        rw [ha'] at h
        simp only [shearText, List.nil_append, List.cons_append, List.cons.injEq] at h
        exact absurd h.1.symm hw'
      | some n' =>
        obtain ⟨h1, h2⟩ := List.append_inj h rfl
        refine ⟨?_, h2⟩
        simp only [shearText, List.append_assoc] at h1
        obtain ⟨h3, -⟩ := List.append_inj (List.append_cancel_left h1) rfl
        simp only [shearCaps, h3]
  obtain ⟨hd, h⟩ := List.append_inj h (by rw [dirText_length, dirText_length])
  obtain ⟨hsp, h⟩ := speedPart_inj (rest_head hu) (rest_head hu') h
  obtain ⟨hgu, h⟩ : gustCaps gu =
      gustCaps gu' ∧ u = u' := by
    obtain ⟨a, r, ha, hw⟩ := unitLike_head hu
    obtain ⟨a', r', ha', hw'⟩ := unitLike_head hu'
    cases gu with
    | none =>
      cases gu' with
      | none => exact ⟨rfl, h⟩
      | some n' =>
        subst ha
        simp only [gustPart, List.nil_append, List.cons_append, List.cons.injEq] at h
        rcases hw with rfl | rfl <;> exact absurd h.1 (by decide)
    | some n =>
      cases gu' with
      | none =>
        subst ha'
        simp only [gustPart, List.nil_append, List.cons_append, List.cons.injEq] at h
        rcases hw' with rfl | rfl <;> exact absurd h.1 (by decide)
      | some n' =>
        simp only [gustPart, List.append_assoc] at h
        have h := List.append_cancel_left h
        obtain ⟨h1, h2⟩ := digits_prefix (speedText_digits n) (speedText_digits n')
          (rest_head (gu := none) hu) (rest_head (gu := none) hu') h
        refine ⟨?_, h2⟩
        simp only [gustCaps, h1]
  simp only [WindForm.caps, hs, hd, hsp, hgu, h]

theorem wind_regex (s : Str) (m : Caps) :
    regexMatch windRgx s = some m ↔ ∃ f : WindForm, f.Ok ∧ s = f.text ∧ m = f.caps :=
  regexMatch_form wind_match (fun _ _ hf hg h => wind_inj hf hg h) s m

/-! ### Surface wind and wind shear -/

/-- The form of a written wind. -/
def formOf (w : WindText) : WindForm := ⟨w.shear, w.dir, w.speed, w.gust, (unitText w.unit).getD []⟩

theorem formOf_text (w : WindText) : (formOf w).text = w.text := by
  obtain ⟨sh, d, sp, gu, u⟩ := w
  unfold formOf WindForm.text WindText.text
  cases sh <;> cases sp <;> cases gu <;> simp [shearText, speedPart, gustPart]

theorem formOf_ok {w : WindText} (h : w.Ok) : (formOf w).Ok := by
  obtain ⟨sh, d, sp, gu, u⟩ := w
  obtain ⟨h1, h2, h3, h4, h5⟩ := h
  refine ⟨h1, h2, h3, h4, ?_⟩
  cases u
  · exact ⟨'K', by simp, 'T', by simp, Or.inl rfl⟩
  · exact ⟨'M', by simp, 'P', by simp, Or.inr ⟨'S', by simp, rfl⟩⟩
  · exact ⟨'K', by simp, 'M', by simp, Or.inr ⟨'H', by simp, rfl⟩⟩
  · exact absurd rfl h5

theorem speedPart_zero {sp : Option Nat} (h : ∀ n ∈ sp, n < 1000) :
    speedPart sp = c!"00" ↔ sp = some 0 := by
  constructor
  · intro h'
    cases sp with
    | none => simp [speedPart] at h'
    | some n =>
      simp only [speedPart] at h'
      unfold speedText at h'
      split at h'
      · rename_i hn
        have : decimal 2 n = decimal 2 0 := h'
        rw [decimal_inj (by simpa using hn) (by simp) this]
      · have := congrArg List.length h'
        simp [decimal_length] at this
  · rintro rfl
    rfl

theorem dirText_zero {d : WindDirection} (h : d.Ok) : d.text = c!"000" ↔ d = .tens 0 := by
  constructor
  · intro h'
    cases d with
    | tens n =>
      have : decimal 3 (10 * n) = decimal 3 0 := h'
      have hn : n < 100 := h
      have := decimal_inj (k := 3) (by simp; omega) (by simp) this
      rw [show n = 0 by omega]
    | varying => simp [WindDirection.text] at h'
    | missing => simp [WindDirection.text] at h'
  · rintro rfl
    rfl

theorem speed_of_part {sp : Option Nat} (h : ∀ n ∈ sp, n < 1000) (u : SpeedUnit) :
    Speed.fromString (speedPart sp) u = some (WindText.speedOf sp u) := by
  rw [C30_speed]
  cases sp with
  | none => exact Or.inl ⟨Or.inr rfl, rfl⟩
  | some n =>
    right
    have := h n rfl
    by_cases hn : n < 100
    · exact Or.inl ⟨n, hn, by simp [speedPart, speedText, hn], rfl⟩
    · exact Or.inr ⟨n, by omega, this, by simp [speedPart, speedText, hn], rfl⟩

theorem direction_of_text {d : WindDirection} (h : d.Ok) :
    Direction.fromDegreesString d.text = some d.direction := by
  rw [C46_degrees]
  cases d with
  | tens n => exact Or.inr (Or.inr ⟨n, h, rfl, rfl⟩)
  | varying => exact Or.inr (Or.inl ⟨rfl, rfl⟩)
  | missing => exact Or.inl ⟨rfl, rfl⟩

theorem parseWind_caps {s : Str} {m : Caps} {u : SpeedUnit} {speed : Speed} {dir : Direction}
    (hm : regexMatch windRgx s = some m) (hu : Speed.unitFromString (m.str 5) = some u)
    (hs : Speed.fromString (m.str 3) u = some speed)
    (hd : Direction.fromDegreesString (m.str 2) = some dir) :
    parseWind s =
      if (m.str 1).isEmpty ∧ (m.str 4).isEmpty ∧ m.str 2 = c!"000" ∧ m.str 3 = c!"00" then
        some { windType := .SURFACE_WIND_CALM, wSpeed := speed }
      else
        match Distance.fromHeightString (m.str 1) with
        | none => some { windType := .SURFACE_WIND, windDir := dir, wSpeed := speed,
                         gSpeed := (Speed.fromString (m.str 4) u).getD {} }
        | some h => some { windType := .WIND_SHEAR, windDir := dir, wSpeed := speed,
                           gSpeed := (Speed.fromString (m.str 4) u).getD {}, wShHeight := h } := by
  unfold parseWind
  rw [hm]
  simp only [hu, hs, hd]
  rfl

/-- Text of the sub-matches which may be absent. -/
def shearCap : Option Nat → Str
  | some n => decimal 3 n
  | none => []

def gustCap : Option Nat → Str
  | some n => speedText n
  | none => []

theorem shearCap_empty (sh : Option Nat) : (shearCap sh).isEmpty = true ↔ sh = none := by
  cases sh <;> simp [shearCap, decimal_three]

theorem gustCap_empty (gu : Option Nat) : (gustCap gu).isEmpty = true ↔ gu = none := by
  cases gu with
  | none => simp [gustCap]
  | some n =>
    obtain ⟨a, r, har, -⟩ := speedText_head n
    simp [gustCap, har]

theorem caps_values (f : WindForm) :
    f.caps.str 1 = shearCap f.shear ∧ f.caps.str 2 = f.dir.text ∧ f.caps.str 3 = speedPart f.speed ∧
      f.caps.str 4 = gustCap f.gust ∧ f.caps.str 5 = f.unit := by
  obtain ⟨sh, d, sp, gu, u⟩ := f
  cases sh <;> cases gu <;>
    simp [WindForm.caps, gustCaps, shearCaps, Caps.str, shearCap, gustCap]

theorem gust_of_caps {gu : Option Nat} (h : ∀ n ∈ gu, n < 1000) (u : SpeedUnit) :
    (Speed.fromString (gustCap gu) u).getD {} = WindText.speedOf gu u := by
  cases gu with
  | none =>
    rw [gustCap, (C30_speed [] u ⟨none, .KNOTS⟩).mpr (Or.inl ⟨Or.inl rfl, rfl⟩)]
    rfl
  | some n =>
    have := speed_of_part (sp := some n) h u
    simp only [speedPart] at this
    simp only [gustCap, this]
    rfl

theorem parseWind_text {w : WindText} (h : w.Ok) : parseWind w.text = some w.group := by
  have hm := (wind_regex (formOf w).text _).mpr ⟨formOf w, formOf_ok h, rfl, rfl⟩
  rw [formOf_text] at hm
  obtain ⟨e1, e2, e3, e4, e5⟩ := caps_values (formOf w)
  obtain ⟨h1, h2, h3, h4, h5⟩ := h
  have hu : Speed.unitFromString ((unitText w.unit).getD []) = some w.unit := by
    cases hw : w.unit <;> first | rfl | exact absurd hw h5
  rw [parseWind_caps hm (by rw [e5]; exact hu) (by rw [e3]; exact speed_of_part h3 _)
    (by rw [e2]; exact direction_of_text h2), e1, e2, e3, e4]
  simp only [formOf]
  rw [gust_of_caps h4]
  have hcalm : ((shearCap w.shear).isEmpty = true ∧ (gustCap w.gust).isEmpty = true ∧
      w.dir.text = c!"000" ∧ speedPart w.speed = c!"00") ↔ w.Calm := by
    rw [speedPart_zero h3, dirText_zero h2, shearCap_empty, gustCap_empty]
    unfold WindText.Calm
    tauto
  unfold WindText.group
  by_cases hc : w.Calm
  · rw [if_pos hc]
    exact if_pos (hcalm.mpr hc)
  · rw [if_neg hc]
    refine (if_neg (fun h => hc (hcalm.mp h))).trans ?_
    cases hsh : w.shear with
    | none => rfl
    | some n =>
      have : Distance.fromHeightString (shearCap (some n)) = some ⟨.NONE, some (100 * n), .FEET⟩ :=
        (C48_height _ _).mpr (Or.inr ⟨n, h1 n hsh, rfl, rfl⟩)
      rw [this]
      rfl

theorem parseWind_iff (s : Str) (g : WindGroup) :
    parseWind s = some g ↔ ∃ w : WindText, w.Ok ∧ s = w.text ∧ g = w.group := by
  constructor
  · intro h
    cases hm : regexMatch windRgx s with
    | none => rw [parseWind, hm] at h; cases h
    | some m =>
      obtain ⟨⟨sh, d, sp, gu, ut⟩, ⟨h1, h2, h3, h4, h5⟩, rfl, rfl⟩ := (wind_regex s m).mp hm
      have hu : ∃ u, Speed.unitFromString ut = some u := by
        rw [parseWind, hm] at h
        cases hu : Speed.unitFromString ut with
        | some u => exact ⟨u, rfl⟩
        | none =>
          have e5 : (WindForm.mk sh d sp gu ut).caps.str 5 = ut := rfl
          simp only [e5, hu] at h
          cases h
      obtain ⟨u, hu⟩ := hu
      obtain ⟨hut, hne⟩ : ut = (unitText u).getD [] ∧ u ≠ .MILES_PER_HOUR := by
        rcases (C30_unit ut u).mp hu with ⟨rfl, rfl⟩ | ⟨rfl, rfl⟩ | ⟨rfl, rfl⟩ <;>
          exact ⟨rfl, by decide⟩
      subst hut
      have hok : (WindText.mk sh d sp gu u).Ok := ⟨h1, h2, h3, h4, hne⟩
      have ht := formOf_text ⟨sh, d, sp, gu, u⟩
      refine ⟨⟨sh, d, sp, gu, u⟩, hok, ht, ?_⟩
      have := parseWind_text hok
      rw [← ht] at this
      exact Option.some.inj (h.symm.trans this)
  · rintro ⟨w, h, rfl, rfl⟩
    exact parseWind_text h

/-! ### Variable wind sector -/

theorem sector_regex (s : Str) (m : Caps) :
    regexMatch varWindRgx s = some m ↔ ∃ f : Nat × Nat, (f.1 < 100 ∧ f.2 < 100) ∧
      s = decimal 3 (10 * f.1) ++ c!"V" ++ decimal 3 (10 * f.2) ∧
      m = [(2, decimal 3 (10 * f.2)), (1, decimal 3 (10 * f.1))] := by
  refine regexMatch_form ?_ ?_ s m
  · intro s c
    simp only [varWindRgx, ↓Rx.match_tens, Rx.match_seq, Rx.match_cap, Rx.match_chr]
    constructor
    · rintro ⟨_, _, _, _, ⟨_, ⟨rfl, a, ha, rfl⟩, rfl⟩, ⟨_, _, _, _, ⟨rfl, rfl⟩, ⟨_, ⟨rfl, b, hb, rfl⟩, rfl⟩,
        rfl, rfl⟩, rfl, rfl⟩
      exact ⟨(a, b), ⟨ha, hb⟩, by simp, rfl⟩
    · rintro ⟨⟨a, b⟩, ⟨ha, hb⟩, rfl, rfl⟩
      exact ⟨decimal 3 (10 * a), c!"V" ++ decimal 3 (10 * b), _, _, ⟨[], ⟨rfl, a, ha, rfl⟩, rfl⟩,
        ⟨_, _, [], _, ⟨rfl, rfl⟩, ⟨[], ⟨rfl, b, hb, rfl⟩, rfl⟩, rfl, rfl⟩, by simp, rfl⟩
  · rintro ⟨a, b⟩ ⟨a', b'⟩ - - h
    simp only [List.append_assoc] at h
    obtain ⟨h1, h⟩ := List.append_inj h rfl
    obtain ⟨-, h⟩ := List.append_inj h rfl
    simp only [h1, h]

theorem sector_iff (s : Str) (g : WindGroup) :
    parseVariableSector s = some g ↔ ∃ a b, a < 100 ∧ b < 100 ∧
      s = decimal 3 (10 * a) ++ c!"V" ++ decimal 3 (10 * b) ∧
      g = { windType := .VARIABLE_WIND_SECTOR, vsecBegin := ⟨10 * a, .VALUE_DEGREES⟩,
            vsecEnd := ⟨10 * b, .VALUE_DEGREES⟩ } := by
  have key : ∀ a b, a < 100 → b < 100 →
      parseVariableSector (decimal 3 (10 * a) ++ c!"V" ++ decimal 3 (10 * b)) =
        some { windType := .VARIABLE_WIND_SECTOR, vsecBegin := ⟨10 * a, .VALUE_DEGREES⟩,
               vsecEnd := ⟨10 * b, .VALUE_DEGREES⟩ } := by
    intro a b ha hb
    unfold parseVariableSector
    rw [(sector_regex _ _).mpr ⟨(a, b), ⟨ha, hb⟩, rfl, rfl⟩]
    have e1 : Caps.str [(2, decimal 3 (10 * b)), (1, decimal 3 (10 * a))] 1 =
      (WindDirection.tens a).text := rfl
    have e2 : Caps.str [(2, decimal 3 (10 * b)), (1, decimal 3 (10 * a))] 2 =
      (WindDirection.tens b).text := rfl
    simp only [e1, e2, direction_of_text (d := .tens a) ha, direction_of_text (d := .tens b) hb]
    rfl
  constructor
  · intro h
    cases hm : regexMatch varWindRgx s with
    | none => rw [parseVariableSector, hm] at h; cases h
    | some m =>
      obtain ⟨⟨a, b⟩, ⟨ha, hb⟩, rfl, -⟩ := (sector_regex s m).mp hm
      exact ⟨a, b, ha, hb, rfl, Option.some.inj (h.symm.trans (key a b ha hb))⟩
  · rintro ⟨a, b, ha, hb, rfl, rfl⟩
    exact key a b ha hb

/-- C46: the texts recognised as wind in each part of a report, and the components the group holds. -/
theorem C46_wind (s : Str) (p : ReportPart) (g : WindGroup) :
    WindGroup.parse s p = some g ↔
      ((p = .METAR ∨ p = .TAF) ∧ ∃ w : WindText, w.Ok ∧ s = w.text ∧ g = w.group) ∨
      ((p = .METAR ∨ p = .TAF) ∧ ∃ a b, a < 100 ∧ b < 100 ∧
        s = decimal 3 (10 * a) ++ c!"V" ++ decimal 3 (10 * b) ∧
        g = { windType := .VARIABLE_WIND_SECTOR, vsecBegin := ⟨10 * a, .VALUE_DEGREES⟩,
              vsecEnd := ⟨10 * b, .VALUE_DEGREES⟩ }) ∨
      (p = .METAR ∧ s = c!"WS" ∧
        g = { windType := .WIND_SHEAR_IN_LOWER_LAYERS, incompleteText := .WS }) ∨
      (p = .TAF ∧ s = c!"WSCONDS" ∧ g = { windType := .WSCONDS }) ∨
      (p = .RMK ∧ s = c!"WSHFT" ∧ g = { windType := .WIND_SHIFT }) ∨
      (p = .RMK ∧ s = c!"PK" ∧ g = { windType := .PEAK_WIND, incompleteText := .PK }) ∨
      (p = .RMK ∧ s = c!"WND" ∧ g = { windType := .WND_MISG, incompleteText := .WND }) := by
  rw [← parseWind_iff, ← sector_iff]
  have hdisj : ∀ g', parseVariableSector s = some g' → parseWind s = none := by
    intro g' h
    cases hw : parseWind s with
    | none => rfl
    | some g'' =>
      obtain ⟨a, b, ha, hb, rfl, -⟩ := (sector_iff _ _).mp h
      obtain ⟨w, hok, ht, -⟩ := (parseWind_iff _ _).mp hw
      rw [← formOf_text] at ht
      obtain ⟨sh, d, sp, gu, u⟩ := w
      simp only [WindForm.text, formOf, List.append_assoc] at ht
      cases sh with
      | some n =>
        obtain ⟨x, y, z, hx, -, -, hxyz⟩ := decimal_three_digits (10 * a)
        rw [hxyz] at ht
        simp only [shearText, List.cons_append, List.cons.injEq] at ht
        rw [ht.1] at hx
        cases hx
      | none =>
        simp only [shearText, List.nil_append] at ht
        obtain ⟨-, ht⟩ := List.append_inj ht (by rw [dirText_length]; rfl)
        cases sp with
        | none => simp [speedPart] at ht
        | some n =>
          obtain ⟨x, r, hxr, hx⟩ := speedText_head n
          simp only [speedPart, hxr, List.cons_append, List.cons.injEq] at ht
          rw [← ht.1] at hx
          cases hx
  have k1 : parseVariableSector c!"WS" = none := by kernel_rfl
  have k2 : parseWind c!"WS" = none := by kernel_rfl
  have k3 : parseVariableSector c!"WSCONDS" = none := by kernel_rfl
  have k4 : parseWind c!"WSCONDS" = none := by kernel_rfl
  unfold WindGroup.parse
  cases p with
  | METAR =>
    by_cases h : s = c!"WS"
    · subst h
      rw [k1, k2]
      simp
      exact eq_comm
    · rw [if_neg (fun x => h x.2)]
      simp only [reduceCtorEq, false_and, if_false, ne_eq, not_true_eq_false, true_or, true_and, h,
        or_false]
      cases hs : parseVariableSector s with
      | none => simp
      | some g' => simp [hdisj g' hs]
  | TAF =>
    by_cases h : s = c!"WSCONDS"
    · subst h
      rw [k3, k4]
      simp
      exact eq_comm
    · rw [if_neg (by simp), if_neg (fun x => h x.2)]
      simp only [reduceCtorEq, false_and, if_false, ne_eq, not_true_eq_false, or_true, true_and, h,
        or_false, and_false]
      cases hs : parseVariableSector s with
      | none => simp
      | some g' => simp [hdisj g' hs]
  | RMK =>
    simp only [reduceCtorEq, false_and, if_false, or_self, true_and, false_or]
    by_cases h1 : s = c!"WSHFT"
    · subst h1; simp; exact eq_comm
    by_cases h2 : s = c!"PK"
    · subst h2; simp; exact eq_comm
    by_cases h3 : s = c!"WND"
    · subst h3; simp; exact eq_comm
    simp [h1, h2, h3]
  | HEADER => simp
  | UNKNOWN => simp

/-- C46: a written wind has exactly one reading: different winds have different texts or mean the
same group. -/
theorem C46_unique (v w : WindText) (hv : v.Ok) (hw : w.Ok) (h : v.text = w.text) : v.group = w.group := by
  have := parseWind_text hv
  rw [h, parseWind_text hw] at this
  exact (Option.some.inj this).symm

/-- C46: a wind sector is appended to a surface wind only; the group then holds the sector written and
everything else as before. -/
theorem C46_sector (g : WindGroup) (s : Str) (md : ReportMetadata) (hi : g.incompleteText = .NONE)
    (ht : g.windType ≠ .WIND_SHIFT) :
    (∃ a b, a < 100 ∧ b < 100 ∧ s = decimal 3 (10 * a) ++ c!"V" ++ decimal 3 (10 * b) ∧
        g.windType = .SURFACE_WIND ∧
        WindGroup.append g s md = ({ g with windType := .SURFACE_WIND_WITH_VARIABLE_SECTOR,
                                            vsecBegin := ⟨10 * a, .VALUE_DEGREES⟩,
                                            vsecEnd := ⟨10 * b, .VALUE_DEGREES⟩ }, .APPENDED)) ∨
    (¬ (g.windType = .SURFACE_WIND ∧ ∃ a b, a < 100 ∧ b < 100 ∧
        s = decimal 3 (10 * a) ++ c!"V" ++ decimal 3 (10 * b)) ∧
      WindGroup.append g s md = (g, .NOT_APPENDED)) := by
  unfold WindGroup.append
  rw [hi]
  simp only
  by_cases hw : g.windType = .SURFACE_WIND
  · rw [hw]
    simp only [appendVariableSector]
    cases hs : parseVariableSector s with
    | none =>
      refine Or.inr ⟨?_, rfl⟩
      rintro ⟨-, a, b, ha, hb, h⟩
      rw [(sector_iff s _).mpr ⟨a, b, ha, hb, h, rfl⟩] at hs
      cases hs
    | some g' =>
      obtain ⟨a, b, ha, hb, h, rfl⟩ := (sector_iff s g').mp hs
      exact Or.inl ⟨a, b, ha, hb, h, trivial, by simp [hi]⟩
  · refine Or.inr ⟨fun h => hw h.1, ?_⟩
    cases h : g.windType <;> first | rfl | exact absurd h hw | exact absurd h ht

end Metaf.Props

namespace Metaf.Props

open Metaf.Spec

attribute [local instance] exactFloat

example : (WindText.mk none (.tens 24) (some 7) (some 115) .METERS_PER_SECOND).text = c!"24007G115MPS" ∧
    WindGroup.parse c!"24007G115MPS" .METAR = some
      { windType := .SURFACE_WIND, windDir := ⟨240, .VALUE_DEGREES⟩,
        wSpeed := ⟨some 7, .METERS_PER_SECOND⟩, gSpeed := ⟨some 115, .METERS_PER_SECOND⟩ } ∧
    WindGroup.parse c!"00000KT" .TAF = some { windType := .SURFACE_WIND_CALM, wSpeed := ⟨some 0, .KNOTS⟩ } ∧
    WindGroup.parse c!"WS020/24045KT" .TAF = some
      { windType := .WIND_SHEAR, windDir := ⟨240, .VALUE_DEGREES⟩, wSpeed := ⟨some 45, .KNOTS⟩,
        wShHeight := ⟨.NONE, some 2000, .FEET⟩ } ∧
    WindGroup.parse c!"24007KMS" .METAR = none := by decide +kernel

end Metaf.Props
