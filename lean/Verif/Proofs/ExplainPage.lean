import Verif.Model.ExplainPage
import Verif.Proofs.ParserLoop

/-!
Lemmas on the functions of JavaScript and of the browser used by the page which explains reports.
-/

namespace Metaf.ExplainPage

/-- A code point which is a character: not a surrogate and not too large. -/
def Scalar (p : Nat) : Prop := p < 0xD800 ∨ (0xE000 ≤ p ∧ p < 0x110000)

theorem scalar_char (c : Char) : Scalar c.toNat := by
  have h : c.toNat.isValidChar := c.valid
  unfold Nat.isValidChar at h
  unfold Scalar
  omega

/-- How a code point is written in an address. -/
def written (p : Nat) : JsText := if unescaped p then [p] else escapes (utf8 p)

theorem unescaped_lt {u : Nat} (h : unescaped u = true) : u < 127 ∧ u ≠ 37 ∧ 33 ≤ u := by
  simp [unescaped] at h
  omega

theorem unescaped_big {u : Nat} (h : 127 ≤ u) : unescaped u = false := by
  cases hu : unescaped u with
  | false => rfl
  | true => have := unescaped_lt hu; omega

theorem encode_point {p : Nat} (hp : Scalar p) (rest : JsText) :
    encodeURIComponent (utf16 p ++ rest) = (encodeURIComponent rest).map (written p ++ ·) := by
  unfold Scalar at hp
  by_cases h : p < 0x10000
  · have hl : isLeading p = false := by simp [isLeading]; omega
    have ht : isTrailing p = false := by simp [isTrailing]; omega
    cases rest with
    | nil => cases hu : unescaped p <;> simp [utf16, h, encodeURIComponent, written, hl, ht, hu]
    | cons v r => cases hu : unescaped p <;> simp [utf16, h, encodeURIComponent, written, hl, ht, hu]
  · have hd : (p - 0x10000) / 1024 < 1024 := by omega
    have hm : (p - 0x10000) % 1024 < 1024 := Nat.mod_lt _ (by decide)
    have hl : isLeading (0xD800 + (p - 0x10000) / 1024) = true := by simp [isLeading]; omega
    have hlt : isTrailing (0xD800 + (p - 0x10000) / 1024) = false := by simp [isTrailing]; omega
    have ht : isTrailing (0xDC00 + (p - 0x10000) % 1024) = true := by simp [isTrailing]; omega
    have hu : unescaped (0xD800 + (p - 0x10000) / 1024) = false := unescaped_big (by omega)
    have hv : pairValue (0xD800 + (p - 0x10000) / 1024) (0xDC00 + (p - 0x10000) % 1024) = p := by
      unfold pairValue; omega
    have hw : unescaped p = false := unescaped_big (by omega)
    have e : utf16 p ++ rest =
        (0xD800 + (p - 0x10000) / 1024) :: (0xDC00 + (p - 0x10000) % 1024) :: rest := by
      simp [utf16, h]
    rw [e, encodeURIComponent]
    simp only [hu, hlt, hl, ht, hv, written, hw, Bool.false_eq_true, if_false, if_true]

theorem encode_points : ∀ {ps : List Nat}, (∀ p ∈ ps, Scalar p) →
    encodeURIComponent (ps.flatMap utf16) = some (ps.flatMap written)
  | [], _ => rfl
  | p :: ps, h => by
    rw [List.flatMap_cons, encode_point (h p (by simp)), encode_points (fun q hq => h q (by simp [hq]))]
    simp

theorem utf8_octets {p : Nat} (hp : Scalar p) : ∀ o ∈ utf8 p, o < 256 := by
  unfold Scalar at hp
  intro o ho
  unfold utf8 at ho
  split at ho
  · simp at ho; omega
  · split at ho
    · simp at ho; omega
    · split at ho <;> simp at ho <;> omega

theorem hexOctet_digits : ∀ b < 256, hexOctet (hexDigit (b / 16)) (hexDigit (b % 16)) = some b := by
  decide +kernel

theorem continuation_escapes : ∀ (os : List Nat) (r : JsText), (∀ o ∈ os, o < 256) →
    continuation os.length (escapes os ++ r) = some (os, r)
  | [], _, _ => rfl
  | o :: os, r, h => by
    simp only [List.length_cons, escapes, List.cons_append, continuation,
      hexOctet_digits o (h o (by simp)), continuation_escapes os r (fun x hx => h x (by simp [hx]))]

theorem utf8Value_utf8 {p : Nat} (hp : Scalar p) : utf8Value (utf8 p) = some p := by
  unfold Scalar at hp
  have hl : isLeading p = false := by simp [isLeading]; omega
  have ht : isTrailing p = false := by simp [isTrailing]; omega
  have hv : ∀ q, q = p → (if utf8 q = utf8 p ∧ q < 0x110000 ∧ ¬ (isLeading q || isTrailing q) then some q else none)
      = some p := by
    rintro q rfl
    rw [if_pos]
    exact ⟨rfl, by omega, by simp [hl, ht]⟩
  by_cases h1 : p < 0x80
  · have e : utf8 p = [p] := by simp [utf8, h1]
    have := hv p rfl
    rw [e] at this
    simpa only [e, utf8Value] using this
  · by_cases h2 : p < 0x800
    · have e : utf8 p = [0xC0 + p / 64, 0x80 + p % 64] := by simp [utf8, h1, h2]
      have := hv ((0xC0 + p / 64 - 0xC0) * 64 + (0x80 + p % 64 - 0x80)) (by omega)
      rw [e] at this
      simpa only [e, utf8Value] using this
    · by_cases h3 : p < 0x10000
      · have e : utf8 p = [0xE0 + p / 4096, 0x80 + p / 64 % 64, 0x80 + p % 64] := by simp [utf8, h1, h2, h3]
        have := hv ((0xE0 + p / 4096 - 0xE0) * 4096 + (0x80 + p / 64 % 64 - 0x80) * 64 + (0x80 + p % 64 - 0x80))
          (by omega)
        rw [e] at this
        simpa only [e, utf8Value] using this
      · have e : utf8 p = [0xF0 + p / 262144, 0x80 + p / 4096 % 64, 0x80 + p / 64 % 64, 0x80 + p % 64] := by
          simp [utf8, h1, h2, h3]
        have := hv ((0xF0 + p / 262144 - 0xF0) * 262144 + (0x80 + p / 4096 % 64 - 0x80) * 4096 +
          (0x80 + p / 64 % 64 - 0x80) * 64 + (0x80 + p % 64 - 0x80)) (by omega)
        rw [e] at this
        simpa only [e, utf8Value] using this

theorem decode_escapes {o : Nat} {os : List Nat} (k : Nat) (ho : 0xC0 ≤ o ∧ o < 0xF8) (hos : ∀ x ∈ os, x < 256)
    (hk : (if o < 0xE0 then 1 else if o < 0xF0 then 2 else 3) = os.length) {p : Nat}
    (hp : utf8Value (o :: os) = some p) (rest : JsText) :
    decode (k + 1) (escapes (o :: os) ++ rest) = (decode k rest).map (utf16 p ++ ·) := by
  have hc := continuation_escapes os rest hos
  have e1 : ¬ o < 0x80 := by omega
  have e2 : (decide (o < 0xC0) || decide (0xF8 ≤ o)) = false := by simp; omega
  simp only [escapes, List.cons_append, decode, ne_eq, not_true_eq_false, if_false,
    hexOctet_digits o (by omega), e1, e2, hk, hc, hp, Bool.false_eq_true]

theorem decode_point {p : Nat} (hp : Scalar p) (k : Nat) (rest : JsText) :
    decode (k + 1) (written p ++ rest) = (decode k rest).map (utf16 p ++ ·) := by
  have hs := hp
  unfold Scalar at hs
  have ho := utf8_octets hp
  have hv := utf8Value_utf8 hp
  unfold written
  cases hu : unescaped p with
  | true =>
    have := unescaped_lt hu
    have e : utf16 p = [p] := by simp [utf16]; omega
    simp [decode, this.2.1, e]
  | false =>
    simp only [Bool.false_eq_true, if_false]
    by_cases h1 : p < 0x80
    · have e : utf8 p = [p] := by simp [utf8, h1]
      have e' : utf16 p = [p] := by simp [utf16]; omega
      rw [e, e']
      simp [escapes, decode, hexOctet_digits p (by omega), h1]
    · by_cases h2 : p < 0x800
      · have e : utf8 p = [0xC0 + p / 64, 0x80 + p % 64] := by simp [utf8, h1, h2]
        rw [e] at ho hv ⊢
        refine decode_escapes k (by omega) (fun x hx => ho x (by simp [hx])) ?_ hv rest
        rw [if_pos (by omega)]; rfl
      · by_cases h3 : p < 0x10000
        · have e : utf8 p = [0xE0 + p / 4096, 0x80 + p / 64 % 64, 0x80 + p % 64] := by simp [utf8, h1, h2, h3]
          rw [e] at ho hv ⊢
          refine decode_escapes k (by omega) (fun x hx => ho x (List.mem_cons_of_mem _ hx)) ?_ hv rest
          rw [if_neg (by omega), if_pos (by omega)]; rfl
        · have e : utf8 p = [0xF0 + p / 262144, 0x80 + p / 4096 % 64, 0x80 + p / 64 % 64, 0x80 + p % 64] := by
            simp [utf8, h1, h2, h3]
          rw [e] at ho hv ⊢
          refine decode_escapes k (by omega) (fun x hx => ho x (List.mem_cons_of_mem _ hx)) ?_ hv rest
          rw [if_neg (by omega), if_neg (by omega)]; rfl

theorem utf8_ne_nil (p : Nat) : utf8 p ≠ [] := by
  unfold utf8
  split
  · simp
  · split
    · simp
    · split <;> simp

theorem written_ne_nil (p : Nat) : written p ≠ [] := by
  unfold written
  split
  · simp
  · cases h : utf8 p with
    | nil => exact absurd h (utf8_ne_nil p)
    | cons o os => simp [escapes]

theorem decode_points : ∀ {ps : List Nat} (k : Nat), (∀ p ∈ ps, Scalar p) → (ps.flatMap written).length ≤ k →
    decode k (ps.flatMap written) = some (ps.flatMap utf16)
  | [], k, _, _ => by cases k <;> rfl
  | p :: ps, k, h, hk => by
    rw [List.flatMap_cons, List.length_append] at hk
    have := List.length_pos_of_ne_nil (written_ne_nil p)
    obtain ⟨j, rfl⟩ : ∃ j, k = j + 1 := ⟨k - 1, by omega⟩
    rw [List.flatMap_cons, decode_point (h p (by simp)), decode_points j (fun q hq => h q (by simp [hq])) (by omega)]
    simp

theorem hexDigit_safe : ∀ n < 16, fragmentSafe (hexDigit n) = true := by decide +kernel

theorem escapes_safe : ∀ {os : List Nat}, (∀ o ∈ os, o < 256) → ∀ u ∈ escapes os, fragmentSafe u = true
  | [], _, u, hu => by simp [escapes] at hu
  | o :: os, h, u, hu => by
    have := h o (by simp)
    simp only [escapes, List.mem_cons] at hu
    rcases hu with rfl | rfl | rfl | hu
    · rfl
    · exact hexDigit_safe _ (by omega)
    · exact hexDigit_safe _ (by omega)
    · exact escapes_safe (fun x hx => h x (by simp [hx])) u hu

theorem written_safe {p : Nat} (hp : Scalar p) : ∀ u ∈ written p, fragmentSafe u = true := by
  intro u hu
  unfold written at hu
  split at hu
  · rename_i h
    simp only [List.mem_singleton] at hu
    subst hu
    simp [unescaped] at h
    simp [fragmentSafe]
    omega
  · exact escapes_safe (utf8_octets hp) u hu

theorem fragmentEncode_safe : ∀ {s : JsText}, (∀ u ∈ s, fragmentSafe u = true) → fragmentEncode s = s
  | [], _ => rfl
  | u :: s, h => by
    have hu := h u (by simp)
    have h1 : (decide (u = 9) || decide (u = 10) || decide (u = 13)) = false := by
      simp [fragmentSafe] at hu; simp; omega
    simp only [fragmentEncode, h1, hu, Bool.false_eq_true, if_false, if_true]
    rw [fragmentEncode_safe (fun x hx => h x (by simp [hx]))]

theorem normalised_same : ∀ {s : JsText}, 13 ∉ s → normalised s = s
  | [], _ => rfl
  | [u], h => by
    have : u ≠ 13 := by rintro rfl; simp at h
    simp [normalised, this]
  | u :: v :: rest, h => by
    have : u ≠ 13 := by rintro rfl; simp at h
    simp only [normalised, this, if_false]
    rw [normalised_same (s := v :: rest) (fun hm => h (List.mem_cons_of_mem _ hm))]

theorem utf16_cr {p : Nat} (h : 13 ∈ utf16 p) : p = 13 := by
  unfold utf16 at h
  split at h <;> simp at h <;> omega

theorem toUtf8_point {p : Nat} (hp : Scalar p) (rest : JsText) : toUtf8 (utf16 p ++ rest) = utf8 p ++ toUtf8 rest := by
  unfold Scalar at hp
  by_cases h : p < 0x10000
  · have hl : isLeading p = false := by simp [isLeading]; omega
    cases rest <;> simp [utf16, h, toUtf8, hl]
  · have hl : isLeading (0xD800 + (p - 0x10000) / 1024) = true := by simp [isLeading]; omega
    have ht : isTrailing (0xDC00 + (p - 0x10000) % 1024) = true := by simp [isTrailing]; omega
    have hv : pairValue (0xD800 + (p - 0x10000) / 1024) (0xDC00 + (p - 0x10000) % 1024) = p := by
      unfold pairValue; omega
    have e : utf16 p ++ rest =
        (0xD800 + (p - 0x10000) / 1024) :: (0xDC00 + (p - 0x10000) % 1024) :: rest := by
      simp [utf16, h]
    rw [e, toUtf8]
    simp only [hl, ht, hv, Bool.and_self, if_true]

theorem toUtf8_points : ∀ {ps : List Nat}, (∀ p ∈ ps, Scalar p) → toUtf8 (ps.flatMap utf16) = ps.flatMap utf8
  | [], _ => rfl
  | p :: ps, h => by
    rw [List.flatMap_cons, toUtf8_point (h p (by simp)), toUtf8_points (fun q hq => h q (by simp [hq])),
      List.flatMap_cons]

theorem utf8_zero {p : Nat} (h : 0 ∈ utf8 p) : p = 0 := by
  unfold utf8 at h
  split at h
  · simp at h; omega
  · split at h
    · simp at h; omega
    · split at h <;> simp at h <;> omega

/-- The groups of a text do not change if it is read octet by octet. -/
theorem tokensAux_octets : ∀ (t cur : Str),
    tokensAux cur ((t.flatMap fun c => utf8 c.toNat).map Char.ofNat) = tokensAux cur t
  | [], _ => rfl
  | c :: t, cur => by
    rw [List.flatMap_cons, List.map_append]
    by_cases h : c.toNat < 0x80
    · have e : (utf8 c.toNat).map Char.ofNat = [c] := by simp [utf8, h, Char.ofNat_toNat]
      rw [e, List.singleton_append]
      simp only [tokensAux, tokensAux_octets t]
    · have hs := scalar_char c
      have hd : ∀ x ∈ (utf8 c.toNat).map Char.ofNat, Spec.Blank x := by
        intro x hx
        obtain ⟨o, ho, rfl⟩ := List.mem_map.mp hx
        have h2 := utf8_octets hs o ho
        have h3 : 128 ≤ o := by
          unfold utf8 at ho
          rw [if_neg h] at ho
          split at ho
          · simp at ho; omega
          · split at ho <;> simp at ho <;> omega
        have hv : o.isValidChar := Or.inl (by omega)
        right
        have e : (Char.ofNat o).toNat = o := by
          unfold Char.ofNat
          rw [dif_pos hv]
          rfl
        omega
      have hc : ReportInput.isDelim c = true := isDelim_iff.mpr (Or.inr (by omega))
      generalize hb : (utf8 c.toNat).map Char.ofNat = b at hd ⊢
      cases b with
      | nil => exact absurd (List.map_eq_nil_iff.mp hb) (utf8_ne_nil _)
      | cons x b =>
        have hx : ReportInput.isDelim x = true := isDelim_iff.mpr (hd x (by simp))
        simp only [List.cons_append, tokensAux, hx, hc, if_true]
        rw [tokensAux_blanks (fun y hy => hd y (by simp [hy])), tokensAux_octets t]

/-- The octets are those of the encoding of characters in Lean. -/
theorem utf8_encodeChar (c : Char) : (String.utf8EncodeChar c).map UInt8.toNat = utf8 c.toNat := by
  have hs := scalar_char c
  unfold Scalar at hs
  unfold String.utf8EncodeChar utf8
  have e : c.toNat = c.val.toNat := rfl
  rw [e] at hs ⊢
  clear e
  generalize c.val.toNat = v at hs ⊢
  dsimp only
  rcases (by omega : v < 0x80 ∨ (0x80 ≤ v ∧ v < 0x800) ∨ (0x800 ≤ v ∧ v < 0x10000) ∨ 0x10000 ≤ v)
    with h | h | h | h
  · have h1 : v ≤ 0x7f := by omega
    simp only [h, h1, if_true, List.map_cons, List.map_nil, UInt8.toNat_ofNat', List.cons.injEq, and_true]
    omega
  · have h1 : ¬ v ≤ 0x7f := by omega
    have h2 : ¬ v < 0x80 := by omega
    have h3 : v ≤ 0x7ff := by omega
    have h4 : v < 0x800 := by omega
    simp only [h1, h2, h3, h4, if_true, if_false, List.map_cons, List.map_nil, UInt8.toNat_ofNat', List.cons.injEq,
      and_true]
    omega
  · have h1 : ¬ v ≤ 0x7f := by omega
    have h2 : ¬ v < 0x80 := by omega
    have h3 : ¬ v ≤ 0x7ff := by omega
    have h4 : ¬ v < 0x800 := by omega
    have h5 : v ≤ 0xffff := by omega
    have h6 : v < 0x10000 := by omega
    simp only [h1, h2, h3, h4, h5, h6, if_true, if_false, List.map_cons, List.map_nil, UInt8.toNat_ofNat',
      List.cons.injEq, and_true]
    omega
  · have h1 : ¬ v ≤ 0x7f := by omega
    have h2 : ¬ v < 0x80 := by omega
    have h3 : ¬ v ≤ 0x7ff := by omega
    have h4 : ¬ v < 0x800 := by omega
    have h5 : ¬ v ≤ 0xffff := by omega
    have h6 : ¬ v < 0x10000 := by omega
    simp only [h1, h2, h3, h4, h5, h6, if_false, List.map_cons, List.map_nil, UInt8.toNat_ofNat',
      List.cons.injEq, and_true]
    omega

theorem takeWhile_octets : ∀ t : Str, ((t.flatMap fun c => utf8 c.toNat).takeWhile (· ≠ 0)) =
    (t.takeWhile (· ≠ Char.ofNat 0)).flatMap fun c => utf8 c.toNat
  | [] => rfl
  | c :: t => by
    rw [List.flatMap_cons]
    by_cases h : c = Char.ofNat 0
    · subst h
      rfl
    · have hz : ∀ o ∈ utf8 c.toNat, decide (o ≠ 0) = true := by
        intro o ho
        simp only [ne_eq, decide_eq_true_eq]
        rintro rfl
        have := utf8_zero ho
        exact h (Char.ext (UInt32.toNat_inj.mp this))
      rw [List.takeWhile_append_of_pos hz, List.takeWhile_cons_of_pos (by simpa using h), takeWhile_octets t,
        List.flatMap_cons]

/-- What the program finds has the groups of the text up to the first zero. -/
theorem tokens_cText (t : Str) :
    tokens (cText (t.flatMap fun c => utf8 c.toNat)) = tokens (t.takeWhile (· ≠ Char.ofNat 0)) := by
  unfold cText tokens
  rw [takeWhile_octets, tokensAux_octets]

end Metaf.ExplainPage
