import Verif.Model.Phenomena
import Verif.Proofs.Util
import Mathlib.Data.Nat.Bitwise

/-!
Lemmas on packed weather phenomena.
-/

namespace Metaf

section Bits

theorem field_same {x b i : Nat} (h : x < 2 ^ b) : ((x <<< i) >>> i) &&& (2 ^ b - 1) = x := by
  rw [Nat.shiftLeft_shiftRight, Nat.and_two_pow_sub_one_eq_mod, Nat.mod_eq_of_lt h]

theorem field_above {x i j k : Nat} (h : j + k ≤ i) :
    ((x <<< i) >>> j) &&& (2 ^ k - 1) = 0 := by
  apply Nat.eq_of_testBit_eq
  intro n
  simp only [Nat.testBit_and, Nat.testBit_shiftRight, Nat.testBit_shiftLeft,
    Nat.testBit_two_pow_sub_one, Nat.zero_testBit, Bool.and_eq_false_iff, decide_eq_false_iff_not]
  by_cases hn : n < k
  · left; left; omega
  · right; exact hn

theorem field_below {x b i j k : Nat} (h : x < 2 ^ b) (hij : i + b ≤ j) :
    ((x <<< i) >>> j) &&& (2 ^ k - 1) = 0 := by
  have : (x <<< i) >>> j = 0 := by
    rw [Nat.shiftRight_eq_div_pow, Nat.shiftLeft_eq]
    apply Nat.div_eq_of_lt
    calc x * 2 ^ i < 2 ^ b * 2 ^ i := by
          exact Nat.mul_lt_mul_of_pos_right h (Nat.two_pow_pos i)
      _ = 2 ^ (i + b) := by rw [Nat.pow_add, Nat.mul_comm]
      _ ≤ 2 ^ j := Nat.pow_le_pow_right (by decide) hij
  rw [this, Nat.zero_and]

end Bits

theorem Qualifier.code_lt (q : Qualifier) : q.code < 2 ^ 3 := by cases q <;> decide
theorem Descriptor.code_lt (d : Descriptor) : d.code < 2 ^ 4 := by cases d <;> decide
theorem Weather.code_lt (w : Weather) : w.code < 2 ^ 5 := by cases w <;> decide
theorem WeatherEvent.code_lt (e : WeatherEvent) : e.code < 2 ^ 2 := by cases e <;> decide

theorem Qualifier.ofCode_code (q : Qualifier) : Qualifier.ofCode q.code = q := by cases q <;> rfl
theorem Descriptor.ofCode_code (d : Descriptor) : Descriptor.ofCode d.code = d := by cases d <;> rfl
theorem Weather.ofCode_code (w : Weather) : Weather.ofCode w.code = w := by cases w <;> rfl
theorem WeatherEvent.ofCode_code (e : WeatherEvent) : WeatherEvent.ofCode e.code = e := by
  cases e <;> rfl

namespace WeatherPhenomena

section Fields

variable (q : Qualifier) (d : Descriptor) (w1 w2 w3 : Weather) (e : WeatherEvent)

private theorem wNum_lt (n : Nat) : (if n > 3 then 3 else n) < 2 ^ 2 := by split <;> omega

theorem packCodes_q (n : Nat) : ((packCodes q d n w1 w2 w3 e) >>> 0) &&& 0x7 = q.code := by
  have h7 : (0x7 : Nat) = 2 ^ 3 - 1 := by decide
  simp only [packCodes, Nat.shiftRight_or_distrib, Nat.and_or_distrib_right, h7]
  rw [field_same q.code_lt, field_above (by omega), field_above (by omega),
    field_above (by omega), field_above (by omega), field_above (by omega), field_above (by omega)]
  simp

theorem packCodes_d (n : Nat) : ((packCodes q d n w1 w2 w3 e) >>> 3) &&& 0xf = d.code := by
  have hf : (0xf : Nat) = 2 ^ 4 - 1 := by decide
  simp only [packCodes, Nat.shiftRight_or_distrib, Nat.and_or_distrib_right, hf]
  rw [field_same d.code_lt, field_below q.code_lt (by omega), field_above (by omega),
    field_above (by omega), field_above (by omega), field_above (by omega), field_above (by omega)]
  simp

theorem packCodes_w1 (n : Nat) : ((packCodes q d n w1 w2 w3 e) >>> 7) &&& 0x1f = w1.code := by
  have hf : (0x1f : Nat) = 2 ^ 5 - 1 := by decide
  simp only [packCodes, Nat.shiftRight_or_distrib, Nat.and_or_distrib_right, hf]
  rw [field_same w1.code_lt, field_below q.code_lt (by omega), field_below d.code_lt (by omega),
    field_above (by omega), field_above (by omega), field_above (by omega), field_above (by omega)]
  simp

theorem packCodes_w2 (n : Nat) : ((packCodes q d n w1 w2 w3 e) >>> 12) &&& 0x1f = w2.code := by
  have hf : (0x1f : Nat) = 2 ^ 5 - 1 := by decide
  simp only [packCodes, Nat.shiftRight_or_distrib, Nat.and_or_distrib_right, hf]
  rw [field_same w2.code_lt, field_below q.code_lt (by omega), field_below d.code_lt (by omega),
    field_above (by omega), field_below w1.code_lt (by omega), field_above (by omega),
    field_above (by omega)]
  simp

theorem packCodes_w3 (n : Nat) : ((packCodes q d n w1 w2 w3 e) >>> 17) &&& 0x1f = w3.code := by
  have hf : (0x1f : Nat) = 2 ^ 5 - 1 := by decide
  simp only [packCodes, Nat.shiftRight_or_distrib, Nat.and_or_distrib_right, hf]
  rw [field_same w3.code_lt, field_below q.code_lt (by omega), field_below d.code_lt (by omega),
    field_above (by omega), field_below w1.code_lt (by omega), field_below w2.code_lt (by omega),
    field_above (by omega)]
  simp

theorem packCodes_n (n : Nat) :
    ((packCodes q d n w1 w2 w3 e) >>> 22) &&& 0x3 = if n > 3 then 3 else n := by
  have hf : (0x3 : Nat) = 2 ^ 2 - 1 := by decide
  have hn := wNum_lt n
  simp only [packCodes]
  generalize (if n > 3 then 3 else n) = k at hn ⊢
  simp only [Nat.shiftRight_or_distrib, Nat.and_or_distrib_right]
  rw [hf]
  generalize h3 : (2 ^ 2 - 1 : Nat) = t
  have ht : t = 2 ^ 2 - 1 := h3.symm
  clear hf h3
  simp only [ht]
  rw [field_same hn, field_below q.code_lt (by omega), field_below d.code_lt (by omega),
    field_below w1.code_lt (by omega), field_below w2.code_lt (by omega),
    field_below w3.code_lt (by omega), field_above (by omega)]
  simp

theorem packCodes_e (n : Nat) : ((packCodes q d n w1 w2 w3 e) >>> 24) &&& 0x3 = e.code := by
  have hf : (0x3 : Nat) = 2 ^ 2 - 1 := by decide
  have hn := wNum_lt n
  simp only [packCodes]
  generalize (if n > 3 then 3 else n) = k at hn ⊢
  simp only [Nat.shiftRight_or_distrib, Nat.and_or_distrib_right]
  rw [hf]
  generalize h3 : (2 ^ 2 - 1 : Nat) = t
  have ht : t = 2 ^ 2 - 1 := h3.symm
  clear hf h3
  simp only [ht]
  rw [field_same e.code_lt, field_below q.code_lt (by omega), field_below d.code_lt (by omega),
    field_below hn (by omega), field_below w1.code_lt (by omega), field_below w2.code_lt (by omega),
    field_below w3.code_lt (by omega)]
  simp

end Fields

/-- The first three codes of a list. -/
theorem pack_eq (q : Qualifier) (d : Descriptor) (w : List Weather) (e : WeatherEvent) :
    ∃ w1 w2 w3, pack q d w e = packCodes q d w.length w1 w2 w3 e ∧
      (0 < w.length → w1 = w.getD 0 .NOT_REPORTED) ∧ (1 < w.length → w2 = w.getD 1 .NOT_REPORTED) ∧
      (2 < w.length → w3 = w.getD 2 .NOT_REPORTED) := by
  refine ⟨_, _, _, rfl, ?_, ?_, ?_⟩
  · intro h; rw [if_pos]; split <;> omega
  · intro h; rw [if_pos]; split <;> omega
  · intro h; rw [if_pos]; split <;> simp_all; omega

theorem pack_qualifier (q d w e) (tm) :
    ({ data := pack q d w e, tm := tm } : WeatherPhenomena).qualifier = q := by
  obtain ⟨w1, w2, w3, h, _⟩ := pack_eq q d w e
  simp only [qualifier, h, packCodes_q, Qualifier.ofCode_code]

theorem pack_descriptor (q d w e) (tm) :
    ({ data := pack q d w e, tm := tm } : WeatherPhenomena).descriptor = d := by
  obtain ⟨w1, w2, w3, h, _⟩ := pack_eq q d w e
  simp only [descriptor, h, packCodes_d, Descriptor.ofCode_code]

theorem pack_event (q d w e) (tm) :
    ({ data := pack q d w e, tm := tm } : WeatherPhenomena).event = e := by
  obtain ⟨w1, w2, w3, h, _⟩ := pack_eq q d w e
  simp only [event, h, packCodes_e, WeatherEvent.ofCode_code]

theorem pack_weather (q d w e) (tm) :
    ({ data := pack q d w e, tm := tm } : WeatherPhenomena).weather = w.take 3 := by
  obtain ⟨w1, w2, w3, h, h1, h2, h3⟩ := pack_eq q d w e
  simp only [weather, h, packCodes_n, packCodes_w1, packCodes_w2, packCodes_w3, Weather.ofCode_code]
  clear h
  rcases w with _ | ⟨a, _ | ⟨b, _ | ⟨c, t⟩⟩⟩
  · simp
  · simp at h1; simp [h1]
  · simp at h1 h2; simp [h1, h2]
  · simp at h1 h2 h3
    have hn : (if t.length + 1 + 1 + 1 > 3 then 3 else t.length + 1 + 1 + 1) = 3 := by
      split <;> omega
    simp only [List.length_cons, hn]
    simp [h1, h2, h3]

theorem packCodes_fields (q d n w1 w2 w3 e) (hn : n ≤ 3) (tm) :
    let p : WeatherPhenomena := { data := packCodes q d n w1 w2 w3 e, tm := tm }
    p.qualifier = q ∧ p.descriptor = d ∧ p.weather = [w1, w2, w3].take n ∧ p.event = e := by
  have hif : (if n > 3 then 3 else n) = n := by split <;> omega
  refine ⟨?_, ?_, ?_, ?_⟩
  · simp only [qualifier, packCodes_q, Qualifier.ofCode_code]
  · simp only [descriptor, packCodes_d, Descriptor.ofCode_code]
  · simp only [weather, packCodes_n, packCodes_w1, packCodes_w2, packCodes_w3, Weather.ofCode_code,
      hif]
    match n, hn with
    | 0, _ => rfl
    | 1, _ => rfl
    | 2, _ => rfl
    | 3, _ => rfl
  · simp only [event, packCodes_e, WeatherEvent.ofCode_code]

theorem weather_length (p : WeatherPhenomena) : p.weather.length ≤ 3 := by
  simp only [weather]
  split <;> split <;> split <;> simp

/-! ### isValid never reads outside of the vector -/

/-- Phenomena that freeze. -/
def Freezes (x : Weather) : Prop := x = .DRIZZLE ∨ x = .RAIN ∨ x = .UNDETERMINED ∨ x = .FOG

/-- Freezing phenomena include one that freezes. -/
def FzOk (p : WeatherPhenomena) : Prop := p.descriptor = .FREEZING → ∃ x ∈ p.weather, Freezes x

theorem fzLoop_ok (w : List Weather) : ∀ n i, (∃ j, i ≤ j ∧ j < i + n ∧ ∃ x, w[j]? = some x ∧
    Freezes x) → fzLoop w n i = .ok true := by
  intro n
  induction n with
  | zero => rintro i ⟨j, h1, h2, _⟩; omega
  | succ n ih =>
    rintro i ⟨j, h1, h2, x, hx, hf⟩
    have hj : j < w.length := by
      rw [List.getElem?_eq_some_iff] at hx; exact hx.1
    have hi : i < w.length := by omega
    simp only [fzLoop, List.getElem?_eq_getElem hi]
    split
    · rfl
    · rename_i hnf
      apply ih
      refine ⟨j, ?_, by omega, x, hx, hf⟩
      by_contra hlt
      have : j = i := by omega
      subst this
      rw [List.getElem?_eq_getElem hi] at hx
      simp only [Option.some.injEq] at hx
      subst hx
      exact hnf hf

theorem isValid_ok {p : WeatherPhenomena} (h : FzOk p) : ∃ b, p.isValid = .ok b := by
  simp only [isValid]
  split
  · exact ⟨_, rfl⟩
  · split
    · exact ⟨_, rfl⟩
    · split
      · rename_i hf
        obtain ⟨x, hx, hfx⟩ := h hf
        obtain ⟨j, hj⟩ := List.mem_iff_getElem?.mp hx
        have hjl : j < p.weather.length := by
          rw [List.getElem?_eq_some_iff] at hj; exact hj.1
        have := weather_length p
        exact ⟨true, fzLoop_ok _ _ _ ⟨j, by omega, by omega, x, hj, hfx⟩⟩
      · exact ⟨_, rfl⟩

theorem fzOk_packCodes {q d n w1 w2 w3 e tm} (hn : n ≤ 3)
    (h : d = .FREEZING → ∃ x ∈ [w1, w2, w3].take n, Freezes x) :
    FzOk { data := packCodes q d n w1 w2 w3 e, tm := tm } := by
  obtain ⟨_, h2, h3, _⟩ := packCodes_fields q d n w1 w2 w3 e hn tm
  intro hd
  rw [h2] at hd
  rw [h3]
  exact h hd

theorem fzOk_pack {q d w e tm} (h : d = .FREEZING → ∃ x ∈ w.take 3, Freezes x) :
    FzOk { data := pack q d w e, tm := tm } := by
  intro hd
  rw [pack_descriptor] at hd
  rw [pack_weather]
  exact h hd

theorem fzOk_fixedString {s : Str} {p : WeatherPhenomena} (h : fixedString s = some p) : FzOk p := by
  unfold fixedString at h
  ite_cases h
  all_goals first
    | (simp only [Option.some.injEq] at h; subst h
       exact fzOk_packCodes (by decide) (by simp [Freezes]))
    | simp at h

theorem fzOk_fixedQualifiedString {s : Str} {p : WeatherPhenomena}
    (h : fixedQualifiedString s = some p) : FzOk p := by
  unfold fixedQualifiedString at h
  ite_cases h
  all_goals first
    | (simp only [Option.some.injEq] at h; subst h
       exact fzOk_packCodes (by decide) (by simp))
    | simp at h

theorem precipLoop_length : ∀ n s ws s' ws', precipLoop n s ws = some (s', ws') →
    ws'.length ≤ ws.length + n := by
  intro n
  induction n with
  | zero => intro s ws s' ws' h; simp only [precipLoop, Option.some.injEq, Prod.mk.injEq] at h
            rw [h.2]; omega
  | succ n ih =>
    intro s ws s' ws' h
    simp only [precipLoop] at h
    split at h
    · simp only [Option.some.injEq, Prod.mk.injEq] at h; rw [h.2]; omega
    · split at h
      · cases h
      · split at h
        · cases h
        · have := ih _ _ _ _ h
          simp at this; omega

theorem freezes_of_allowed {x : Weather} (h : isDescriptorFzAllowed x = true) : Freezes x := by
  cases x <;> simp_all [isDescriptorFzAllowed, Freezes]

theorem fzOk_precipitation {s : Str} {b : Bool} {p : WeatherPhenomena}
    (h : precipitation s b = some p) : FzOk p := by
  simp only [precipitation] at h
  split at h
  · cases h
  · split at h
    · cases h
    · split at h
      · cases h
      · split at h
        · cases h
        · rename_i rest ws hl
          have hlen := precipLoop_length _ _ _ _ _ hl
          split at h
          · cases h
          · split at h
            · cases h
            · split at h
              · cases h
              · rename_i hfz
                simp only [Option.some.injEq] at h
                subst h
                apply fzOk_pack
                intro hd
                simp only [hd, beq_self_eq_true, Bool.and_true, Bool.not_eq_true, Bool.not_eq_false',
                  List.any_eq_true] at hfz
                obtain ⟨x, hx, hx2⟩ := hfz
                refine ⟨x, ?_, freezes_of_allowed hx2⟩
                rw [List.take_of_length_le (by simpa using hlen)]
                exact hx

theorem fzOk_fromString {s : Str} {b : Bool} {p : WeatherPhenomena}
    (h : fromString s b = some p) : FzOk p := by
  simp only [fromString] at h
  split at h
  · rename_i p' hp
    simp only [Option.some.injEq] at h; subst h
    exact fzOk_fixedString hp
  · split at h
    · rename_i p' hp
      simp only [Option.some.injEq] at h; subst h
      split at hp
      · exact fzOk_fixedQualifiedString hp
      · cases hp
    · exact fzOk_precipitation h

theorem fzOk_default : FzOk {} := by
  intro h
  simp [descriptor, Descriptor.ofCode] at h

theorem fzOk_repack {p : WeatherPhenomena} {e tm} (h : FzOk p) :
    FzOk { data := pack p.qualifier p.descriptor p.weather e, tm := tm } := by
  apply fzOk_pack
  intro hd
  rw [List.take_of_length_le (weather_length p)]
  exact h hd

theorem fromWeatherBeginEndString_ok {s : Str} {rt : MetafTime} {prev : WeatherPhenomena}
    (h : FzOk prev) : ∃ r, fromWeatherBeginEndString s rt prev = .ok r ∧ ∀ p ∈ r, FzOk p := by
  simp only [fromWeatherBeginEndString]
  split
  · exact ⟨none, rfl, by simp⟩
  · split
    · split
      · exact ⟨none, rfl, by simp⟩
      · rename_i ph hph
        refine ⟨_, rfl, ?_⟩
        intro p hp
        simp only [Option.mem_def, Option.some.injEq] at hp
        subst hp
        exact fzOk_repack (fzOk_fromString hph)
    · obtain ⟨b, hb⟩ := isValid_ok h
      rw [hb]
      cases b with
      | false => exact ⟨none, rfl, by simp⟩
      | true =>
        refine ⟨_, rfl, ?_⟩
        intro p hp
        simp only [Option.mem_def, Option.some.injEq] at hp
        subst hp
        exact fzOk_repack h

end WeatherPhenomena

end Metaf
