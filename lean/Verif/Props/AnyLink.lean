import Verif.Props.ExplainPage

/-!
C133: what the page which explains reports shows for any link, also for one it has not made itself.
-/

set_option linter.unusedSectionVars false

namespace Metaf.Props

open Metaf Metaf.Spec Metaf.ExplainPage

/-! ### Specification -/

/-- The hexadecimal digits in upper and lower case, with their values. -/
def hexDigits : List (Char × Nat) :=
  [('0', 0), ('1', 1), ('2', 2), ('3', 3), ('4', 4), ('5', 5), ('6', 6), ('7', 7), ('8', 8), ('9', 9),
    ('A', 10), ('B', 11), ('C', 12), ('D', 13), ('E', 14), ('F', 15),
    ('a', 10), ('b', 11), ('c', 12), ('d', 13), ('e', 14), ('f', 15)]

/-- The character is a hexadecimal digit, in upper or lower case, of this value. -/
def HexDigitOf (c : Char) (n : Nat) : Prop :=
  (c, n) ∈ hexDigits

/-- `EscapeOf os s`: the text `s` consists of an escape for each of the octets: `%` and two digits. -/
inductive EscapeOf : List Nat → Str → Prop
  | nil : EscapeOf [] []
  | cons {o os a b h l s} : HexDigitOf a h → HexDigitOf b l → o = 16 * h + l → EscapeOf os s →
      EscapeOf (o :: os) ('%' :: a :: b :: s)

/-- `LinkText t l`: the link `l` stands for the text `t`. Each character is written as it is, unless it is `%`, or
with the escapes of its octets in UTF-8. -/
inductive LinkText : Str → Str → Prop
  | nil : LinkText [] []
  | plain {c t l} : c ≠ '%' → LinkText t l → LinkText (c :: t) (c :: l)
  | escaped {c t e l} : EscapeOf ((String.utf8EncodeChar c).map UInt8.toNat) e → LinkText t l →
      LinkText (c :: t) (e ++ l)

/-! ### Digits -/

theorem hexValue_iff (c : Char) (n : Nat) : hexValue c.toNat = some n ↔ HexDigitOf c n := by
  constructor
  · intro h
    have hc : c.toNat < 128 := by
      unfold hexValue at h
      split at h
      · rename_i h'; simp at h'; omega
      · split at h
        · rename_i h'; simp at h'; omega
        · split at h
          · rename_i h'; simp at h'; omega
          · cases h
    have all : ∀ k < 128, (hexValue k).all (fun n => hexDigits.contains (Char.ofNat k, n)) = true := by
      decide +kernel
    have := all c.toNat hc
    rw [h, Char.ofNat_toNat] at this
    exact List.contains_iff_mem.mp this
  · intro h
    have all : ∀ e ∈ hexDigits, hexValue e.1.toNat = some e.2 := by decide
    exact all _ h

theorem hexOctet_iff (a b : Char) (o : Nat) :
    hexOctet a.toNat b.toNat = some o ↔ ∃ h l, HexDigitOf a h ∧ HexDigitOf b l ∧ o = 16 * h + l := by
  unfold hexOctet
  constructor
  · intro e
    split at e
    · rename_i x y hx hy
      cases e
      exact ⟨x, y, (hexValue_iff _ _).mp hx, (hexValue_iff _ _).mp hy, rfl⟩
    · cases e
  · rintro ⟨h, l, h1, h2, rfl⟩
    rw [(hexValue_iff _ _).mpr h1, (hexValue_iff _ _).mpr h2]

theorem digit_lt {c : Char} {n : Nat} (h : HexDigitOf c n) : c.toNat < 128 ∧ n < 16 := by
  have all : ∀ e ∈ hexDigits, e.1.toNat < 128 ∧ e.2 < 16 := by decide
  exact all _ h

theorem units_ascii {c : Char} (h : c.toNat < 128) (t : Str) : units (c :: t) = c.toNat :: units t := by
  rw [units_cons, if_pos (by omega)]
  rfl

theorem units_append (s t : Str) : units (s ++ t) = units s ++ units t := by
  unfold units
  rw [List.flatMap_append]

/-- A text which begins with a unit below 128 begins with this character. -/
theorem units_first {l : Str} {u : Nat} {rest : JsText} (h : units l = u :: rest) (hu : u < 128) :
    ∃ c l', l = c :: l' ∧ c.toNat = u ∧ units l' = rest := by
  cases l with
  | nil => cases h
  | cons c l =>
    rw [units_cons] at h
    split at h
    · injection h with h1 h2
      exact ⟨c, l, rfl, h1, h2⟩
    · injection h with h1 h2
      omega

theorem hexOctet_small {a b o : Nat} (h : hexOctet a b = some o) : a < 128 ∧ b < 128 ∧ o < 256 := by
  have one : ∀ {k n}, hexValue k = some n → k < 128 ∧ n < 16 := by
    intro k n h
    unfold hexValue at h
    split at h
    · rename_i h'; simp at h'; cases h; omega
    · split at h
      · rename_i h'; simp at h'; cases h; omega
      · split at h
        · rename_i h'; simp at h'; cases h; omega
        · cases h
  unfold hexOctet at h
  split at h
  · rename_i x y hx hy
    have := one hx
    have := one hy
    cases h
    omega
  · cases h

/-! ### Links -/

theorem units_percent {a b : Char} {h l : Nat} (ha : HexDigitOf a h) (hb : HexDigitOf b l) (s : Str) :
    units ('%' :: a :: b :: s) = 37 :: a.toNat :: b.toNat :: units s := by
  rw [units_ascii (by decide), units_ascii (digit_lt ha).1, units_ascii (digit_lt hb).1]
  rfl

theorem continuation_of {os : List Nat} {e : Str} (h : EscapeOf os e) (r : JsText) :
    continuation os.length (units e ++ r) = some (os, r) := by
  induction h with
  | nil => rfl
  | cons ha hb ho _ ih =>
    rw [units_percent ha hb]
    simp only [List.length_cons, List.cons_append, continuation, (hexOctet_iff _ _ _).mpr ⟨_, _, ha, hb, ho⟩, ih]

theorem of_continuation : ∀ {n : Nat} {l : Str} {os : List Nat} {r : JsText},
    continuation n (units l) = some (os, r) →
    ∃ e l', l = e ++ l' ∧ EscapeOf os e ∧ os.length = n ∧ units l' = r
  | 0, l, os, r, h => by
    simp only [continuation, Option.some.injEq, Prod.mk.injEq] at h
    obtain ⟨rfl, rfl⟩ := h
    exact ⟨[], l, rfl, .nil, rfl, rfl⟩
  | n + 1, l, os, r, h => by
    generalize hu : units l = us at h
    unfold continuation at h
    split at h
    · simp_all
    · rename_i k a b s heq
      cases heq
      split at h
      · rename_i o os' r' ho hc
        simp only [Option.some.injEq, Prod.mk.injEq] at h
        obtain ⟨rfl, rfl⟩ := h
        have hs := hexOctet_small ho
        obtain ⟨c, l1, rfl, hc1, hu1⟩ := units_first hu (by decide)
        obtain ⟨d1, l2, rfl, rfl, hu2⟩ := units_first hu1 hs.1
        obtain ⟨d2, l3, rfl, rfl, rfl⟩ := units_first hu2 hs.2.1
        obtain ⟨e, l', rfl, he, hl, hr⟩ := of_continuation hc
        obtain ⟨x, y, hx, hy, hxy⟩ := (hexOctet_iff _ _ _).mp ho
        obtain rfl : c = '%' := Char.ext (UInt32.toNat_inj.mp hc1)
        exact ⟨'%' :: d1 :: d2 :: e, l', rfl, .cons hx hy hxy he, by simp [hl], hr⟩
      · cases h
    · cases h

theorem first_octet {p o : Nat} {os : List Nat} (h : utf8 p = o :: os) (hp : Scalar p) :
    (o < 0x80 ∧ os = [] ∧ o = p) ∨
    (0xC0 ≤ o ∧ o < 0xF8 ∧ (if o < 0xE0 then 1 else if o < 0xF0 then 2 else 3) = os.length) := by
  unfold Scalar at hp
  unfold utf8 at h
  split at h
  · cases h
    exact Or.inl ⟨by assumption, rfl, rfl⟩
  · right
    split at h
    · cases h
      refine ⟨by omega, by omega, ?_⟩
      rw [if_pos (by omega)]
      rfl
    · split at h
      · cases h
        refine ⟨by omega, by omega, ?_⟩
        rw [if_neg (by omega), if_pos (by omega)]
        rfl
      · cases h
        refine ⟨by omega, by omega, ?_⟩
        rw [if_neg (by omega), if_neg (by omega)]
        rfl

theorem units_utf16 (c : Char) (t : Str) : units (c :: t) = utf16 c.toNat ++ units t := by
  rw [units_eq, units_eq, List.map_cons, List.flatMap_cons]

/-- The text of a link is decoded. -/
theorem decode_link {t l : Str} (h : LinkText t l) : ∀ k, (units l).length ≤ k → decode k (units l) = some (units t) := by
  induction h with
  | nil => intro k _; cases k <;> rfl
  | @plain c t l hc _ ih =>
    intro k hk
    have hn : c.toNat ≠ 37 := fun e => hc (Char.ext (UInt32.toNat_inj.mp e))
    rw [units_cons] at hk ⊢
    rw [units_cons]
    split
    · rename_i h
      rw [if_pos h] at hk
      obtain ⟨k, rfl⟩ : ∃ i, k = i + 1 := ⟨k - 1, by simp at hk; omega⟩
      simp only [List.singleton_append, decode, hn, ne_eq, not_false_eq_true, if_true, ih k (by simpa using hk),
        Option.map_some]
    · rename_i h
      rw [if_neg h] at hk
      obtain ⟨k, rfl⟩ : ∃ i, k = i + 1 + 1 := ⟨k - 2, by simp at hk; omega⟩
      have h1 : 0xD7C0 + c.toNat / 1024 ≠ 37 := by omega
      have h2 : 0xDC00 + c.toNat % 1024 ≠ 37 := by omega
      simp only [List.cons_append, List.nil_append, decode, h1, h2, ne_eq, not_false_eq_true, if_true,
        ih k (by simpa using hk), Option.map_some]
  | @escaped c t e l he _ ih =>
    intro k hk
    have hs := scalar_char c
    rw [utf8_encodeChar] at he
    have hv := utf8Value_utf8 hs
    generalize ho : utf8 c.toNat = os at he hv
    cases he with
    | nil => exact absurd ho (utf8_ne_nil _)
    | @cons o os a b h l' s ha hb hol hes =>
      have hx := (hexOctet_iff a b o).mpr ⟨h, l', ha, hb, hol⟩
      rw [units_append, units_percent ha hb] at hk ⊢
      obtain ⟨k, rfl⟩ : ∃ i, k = i + 1 := ⟨k - 1, by simp at hk; omega⟩
      have ih := ih k (by simp at hk; omega)
      rw [units_utf16]
      rcases first_octet ho hs with ⟨h1, rfl, h3⟩ | ⟨h1, h2, h3⟩
      · cases hes
        have e' : utf16 c.toNat = [o] := by rw [← h3]; simp [utf16]; omega
        rw [e']
        simp only [List.cons_append, decode, ne_eq, not_true_eq_false, if_false, hx, h1, if_true]
        rw [show units [] ++ units l = units l from rfl, ih]
        rfl
      · have e1 : ¬ o < 0x80 := by omega
        have e2 : (decide (o < 0xC0) || decide (0xF8 ≤ o)) = false := by simp; omega
        have hc := continuation_of hes (units l)
        simp only [List.cons_append, decode, ne_eq, not_true_eq_false, if_false, hx, e1, e2, h3, hc, hv,
          Bool.false_eq_true, ih, Option.map_some]

theorem decode_succ (k u : Nat) (rest : JsText) : decode (k + 1) (u :: rest) =
    if u ≠ 37 then (decode k rest).map (u :: ·)
    else
      match rest with
      | a :: b :: s =>
        match hexOctet a b with
        | none => none
        | some o =>
          if o < 0x80 then (decode k s).map (o :: ·)
          else if o < 0xC0 || 0xF8 ≤ o then none
          else
            match continuation (if o < 0xE0 then 1 else if o < 0xF0 then 2 else 3) s with
            | none => none
            | some (os, r) =>
              match utf8Value (o :: os) with
              | none => none
              | some p => (decode k r).map (utf16 p ++ ·)
      | _ => none := rfl

theorem utf8Value_some {os : List Nat} {p : Nat} (h : utf8Value os = some p) : utf8 p = os ∧ Scalar p := by
  have key : ∀ q : Nat, (if utf8 q = os ∧ q < 0x110000 ∧ ¬ (isLeading q || isTrailing q) then some q else none) =
      some p → utf8 p = os ∧ Scalar p := by
    intro q hq
    split at hq
    · rename_i hv
      obtain rfl := Option.some.inj hq
      refine ⟨hv.1, ?_⟩
      have h1 := hv.2.1
      have h2 := hv.2.2
      simp [isLeading, isTrailing] at h2
      unfold Scalar
      omega
    · cases hq
  unfold utf8Value at h
  exact key _ h

/-- A link which is decoded stands for a text. -/
theorem link_of_decode : ∀ (k : Nat) (l : Str) (u : JsText), decode k (units l) = some u →
    ∃ t, LinkText t l ∧ u = units t := by
  intro k
  induction k using Nat.strongRecOn with
  | _ k ih =>
    intro l u h
    cases l with
    | nil =>
      refine ⟨[], .nil, ?_⟩
      cases k <;> (cases h; rfl)
    | cons c l =>
      rw [units_cons] at h
      split at h
      · rename_i hc
        cases k with
        | zero => cases h
        | succ k =>
          rw [List.singleton_append, decode_succ] at h
          split at h
          · rename_i hn
            obtain ⟨w, hw, rfl⟩ := Option.map_eq_some_iff.mp h
            obtain ⟨t, ht, rfl⟩ := ih k (by omega) l w hw
            refine ⟨c :: t, .plain (fun e => hn (e ▸ rfl)) ht, ?_⟩
            rw [units_cons, if_pos hc]
            rfl
          · rename_i hn
            obtain rfl : c = '%' := Char.ext (UInt32.toNat_inj.mp (Decidable.not_not.mp hn))
            split at h
            · rename_i a b s hu
              split at h
              · cases h
              · rename_i o ho
                have hs := hexOctet_small ho
                obtain ⟨d1, l1, rfl, rfl, hu1⟩ := units_first hu hs.1
                obtain ⟨d2, l2, rfl, rfl, rfl⟩ := units_first hu1 hs.2.1
                obtain ⟨x, y, hx, hy, hxy⟩ := (hexOctet_iff _ _ _).mp ho
                split at h
                · rename_i h80
                  obtain ⟨w, hw, rfl⟩ := Option.map_eq_some_iff.mp h
                  obtain ⟨t, ht, rfl⟩ := ih k (by omega) l2 w hw
                  obtain ⟨q, hq⟩ := toNat_scalar (p := o) (by unfold Scalar; omega)
                  refine ⟨q :: t, LinkText.escaped (e := ['%', d1, d2]) ?_ ht, ?_⟩
                  · rw [utf8_encodeChar, hq]
                    have e : utf8 o = [o] := by simp [utf8, h80]
                    rw [e]
                    exact .cons hx hy hxy .nil
                  · rw [units_ascii (by omega), hq]
                · split at h
                  · cases h
                  · split at h
                    · cases h
                    · rename_i os r hc
                      obtain ⟨e, l3, rfl, he, hl, rfl⟩ := of_continuation hc
                      split at h
                      · cases h
                      · rename_i p hp
                        obtain ⟨w, hw, rfl⟩ := Option.map_eq_some_iff.mp h
                        obtain ⟨t, ht, rfl⟩ := ih k (by omega) l3 w hw
                        obtain ⟨hv, hsc⟩ := utf8Value_some hp
                        obtain ⟨q, hq⟩ := toNat_scalar hsc
                        refine ⟨q :: t, LinkText.escaped (e := '%' :: d1 :: d2 :: e) ?_ ht, ?_⟩
                        · rw [utf8_encodeChar, hq, hv]
                          exact .cons hx hy hxy he
                        · rw [units_utf16, hq]
            · cases h
      · rename_i hc
        cases k with
        | zero => cases h
        | succ k =>
          have h1 : 0xD7C0 + c.toNat / 1024 ≠ 37 := by omega
          have h2 : 0xDC00 + c.toNat % 1024 ≠ 37 := by omega
          cases k with
          | zero =>
            simp only [List.cons_append, List.nil_append, decode, h1, ne_eq, not_false_eq_true, if_true] at h
            cases h
          | succ k =>
            simp only [List.cons_append, List.nil_append, decode, h1, h2, ne_eq, not_false_eq_true, if_true,
              Option.map_map] at h
            obtain ⟨w, hw, rfl⟩ := Option.map_eq_some_iff.mp h
            obtain ⟨t, ht, rfl⟩ := ih k (by omega) l w hw
            refine ⟨c :: t, .plain (fun e => by subst e; exact hc (by decide)) ht, ?_⟩
            rw [units_cons, if_neg hc]
            rfl

theorem decodes_iff (l : Str) (u : JsText) : decodeURIComponent (units l) = some u ↔ ∃ t, LinkText t l ∧ u = units t := by
  unfold decodeURIComponent
  constructor
  · exact link_of_decode _ _ _
  · rintro ⟨t, ht, rfl⟩
    exact decode_link ht _ (Nat.le_refl _)

theorem cr_units {t : Str} (h : '\r' ∉ t) : 13 ∉ units t := by
  unfold units
  intro hm
  obtain ⟨c, hc, hm⟩ := List.mem_flatMap.mp hm
  split at hm
  · rw [List.mem_singleton] at hm
    obtain rfl : c = '\r' := Char.ext (UInt32.toNat_inj.mp hm.symm)
    exact h hc
  · simp only [List.mem_cons, List.not_mem_nil, or_false] at hm
    omega

theorem units_ne_nil {l : Str} (h : l ≠ []) : units l ≠ [] := by
  cases l with
  | nil => exact absurd rfl h
  | cons c l =>
    rw [units_cons]
    split <;> simp

section model

variable [FloatIeee]

/-- C133. A page opened at any link which stands for a text without carriage returns, however it is written, shows
this text and its explanation, and the address becomes the one the page itself gives the text. -/
theorem C133_any_link (t l : Str) (h : LinkText t l) (ht : t ≠ []) (hcr : '\r' ∉ t) :
    after (units l) [.loaded, .started] =
      { ready := true, input := units t, fragment := (address t).map Char.toNat,
        table := explanation (t.takeWhile (· ≠ Char.ofNat 0)) } := by
  have hl : units l ≠ [] := by
    apply units_ne_nil
    rintro rfl
    generalize hl : ([] : Str) = l at h
    cases h with
    | nil => exact ht rfl
    | plain => cases hl
    | escaped he h' =>
      rename_i c t' e l'
      rw [utf8_encodeChar] at he
      generalize ho : utf8 c.toNat = os at he
      cases he with
      | nil => exact utf8_ne_nil _ ho
      | cons => cases hl
  have hg : getInputFromHash { fragment := units l } = { input := units t, fragment := units l } := by
    unfold getInputFromHash
    simp only [ne_eq, hl, not_false_eq_true, if_true, (decodes_iff l _).mpr ⟨t, h, rfl⟩,
      normalised_same (cr_units hcr)]
  rw [after_opened, hg, explain_units (t := t) _ rfl]
  simp only [if_true]

/-- C133. A page opened at a link which stands for no text shows the empty text, and the link is wiped. -/
theorem C133_no_text (l : Str) (h : ∀ t, ¬ LinkText t l) :
    after (units l) [.loaded, .started] =
      { ready := true, input := [], fragment := [], table := explanation [] } := by
  have hd : decodeURIComponent (units l) = none := by
    cases hd : decodeURIComponent (units l) with
    | none => rfl
    | some u =>
      obtain ⟨t, ht, _⟩ := (decodes_iff l u).mp hd
      exact absurd ht (h t)
  have hl : units l ≠ [] := by
    intro e
    rw [e] at hd
    exact absurd hd (by decide)
  have hg : getInputFromHash { fragment := units l } = { fragment := units l } := by
    unfold getInputFromHash
    simp only [ne_eq, hl, not_false_eq_true, if_true, hd]
  rw [after_opened, hg, explain_units (t := []) _ rfl]
  simp only [if_true, List.takeWhile_nil, address, List.flatMap_nil, List.map_nil]

end model

/-- A link with small letters, with a letter which need not be escaped and with a space which is not. -/
example : LinkText ['é', 'K', ' ', 'o'] c!"%c3%A9%4b o" := by
  refine .escaped (e := c!"%c3%A9") ?_ (.escaped (e := c!"%4b") ?_ (.plain (by decide) (.plain (by decide) .nil)))
  · exact .cons (o := 0xC3) (h := 12) (l := 3) (by unfold HexDigitOf; decide) (by unfold HexDigitOf; decide) rfl
      (.cons (o := 0xA9) (h := 10) (l := 9) (by unfold HexDigitOf; decide) (by unfold HexDigitOf; decide) rfl .nil)
  · exact .cons (o := 0x4B) (h := 4) (l := 11) (by unfold HexDigitOf; decide) (by unfold HexDigitOf; decide) rfl .nil

/-- The letter `/` in two octets: this stands for no text. -/
example : ∀ t, ¬ LinkText t c!"%C0%AF" := by
  intro t h
  have := (decodes_iff _ _).mpr ⟨t, h, rfl⟩
  revert this
  have e : decodeURIComponent (units c!"%C0%AF") = none := by decide +kernel
  rw [e]
  exact nofun

end Metaf.Props
