import Verif.Model.GroupsC
import Verif.Spec.Clouds
import Verif.Proofs.RegexText
import Verif.Proofs.Util
import Verif.Proofs.NoFault
import Verif.Props.DistanceText

/-!
C43: cloud types.
-/

set_option linter.unusedSectionVars false

namespace Metaf.Props

open Metaf.Spec CloudTypesGroup

variable [FloatSem]

/-! ### Names -/

theorem cloudName_iff (s : Str) (k : CloudTypeKind) :
    CloudType.cloudTypeFromString s = k ∧ k ≠ .NOT_REPORTED ↔ (s, k) ∈ cloudNames := by
  simp only [cloudNames, List.mem_cons, Prod.mk.injEq, List.not_mem_nil, or_false]
  constructor
  · rintro ⟨h, hk⟩
    unfold CloudType.cloudTypeFromString at h
    ite_cases h
    all_goals first
      | exact absurd h.symm hk
      | (subst h; simp_all)
  · rintro (⟨rfl, rfl⟩ | ⟨rfl, rfl⟩ | ⟨rfl, rfl⟩ | ⟨rfl, rfl⟩ | ⟨rfl, rfl⟩ | ⟨rfl, rfl⟩ | ⟨rfl, rfl⟩ |
      ⟨rfl, rfl⟩ | ⟨rfl, rfl⟩ | ⟨rfl, rfl⟩ | ⟨rfl, rfl⟩ | ⟨rfl, rfl⟩ | ⟨rfl, rfl⟩ | ⟨rfl, rfl⟩) <;>
      exact ⟨rfl, by decide⟩

theorem obscurationName_iff (s : Str) (k : CloudTypeKind) :
    CloudType.cloudTypeOrObscurationFromString s = k ∧ k ≠ .NOT_REPORTED ↔
      (s, k) ∈ cloudNames ++ obscurationNames := by
  constructor
  · rintro ⟨h, hk⟩
    rw [List.mem_append]
    unfold CloudType.cloudTypeOrObscurationFromString at h
    by_cases h0 : CloudType.cloudTypeFromString s = .NOT_REPORTED
    · rw [if_neg (by simpa using h0)] at h
      right
      simp only [obscurationNames, List.mem_cons, Prod.mk.injEq, List.not_mem_nil, or_false]
      ite_cases h
      all_goals first
        | exact absurd h.symm hk
        | (subst h; simp_all)
    · rw [if_pos h0] at h
      exact Or.inl ((cloudName_iff s k).mp ⟨h, hk⟩)
  · intro h
    rcases List.mem_append.mp h with h | h
    · obtain ⟨h1, h2⟩ := (cloudName_iff s k).mpr h
      unfold CloudType.cloudTypeOrObscurationFromString
      rw [if_pos (by rw [h1]; exact h2)]
      exact ⟨h1, h2⟩
    · simp only [obscurationNames, List.mem_cons, Prod.mk.injEq, List.not_mem_nil, or_false] at h
      rcases h with ⟨rfl, rfl⟩ | ⟨rfl, rfl⟩ | ⟨rfl, rfl⟩ | ⟨rfl, rfl⟩ | ⟨rfl, rfl⟩ | ⟨rfl, rfl⟩ | ⟨rfl, rfl⟩ |
        ⟨rfl, rfl⟩ | ⟨rfl, rfl⟩ | ⟨rfl, rfl⟩ | ⟨rfl, rfl⟩ | ⟨rfl, rfl⟩ | ⟨rfl, rfl⟩ <;>
        exact ⟨rfl, by decide⟩

/-- The names consist of two to four capital letters. -/
theorem name_letters {t : Str} {k : CloudTypeKind} (h : (t, k) ∈ cloudNames ++ obscurationNames) :
    2 ≤ t.length ∧ t.length ≤ 4 ∧ ∀ c ∈ t, 'A' ≤ c ∧ c ≤ 'Z' := by
  have : ∀ p ∈ cloudNames ++ obscurationNames, 2 ≤ p.1.length ∧ p.1.length ≤ 4 ∧
      ∀ c ∈ p.1, 'A' ≤ c ∧ c ≤ 'Z' := by decide
  exact this _ h

theorem cloudName_length {t : Str} {k : CloudTypeKind} (h : (t, k) ∈ cloudNames) :
    t.length = 2 ∨ t.length = 3 := by
  have : ∀ p ∈ cloudNames, p.1.length = 2 ∨ p.1.length = 3 := by decide
  exact this _ h

theorem letter_not_digit {c : Char} (h : 'A' ≤ c ∧ c ≤ 'Z') : isDigit c = false := by
  have h1 : 65 ≤ c.toNat := h.1
  simp only [isDigit, Bool.and_eq_false_iff, decide_eq_false_iff_not]
  right
  have : ('9' : Char).toNat = 57 := rfl
  omega

/-! ### A cloud type -/

/-- C43. The texts that are a cloud type, and which. -/
theorem C43_type (s : Str) (c : CloudType) :
    CloudType.fromString s = some c ↔ OktaText s c ∨ TypeLayerText s c := by
  constructor
  · intro h
    unfold CloudType.fromString at h
    cases s with
    | nil => cases h
    | cons x r =>
      simp only [List.isEmpty_cons, Bool.false_eq_true, if_false] at h
      by_cases hd : isDigit (ch (x :: r) 0) = true
      · rw [if_pos hd] at h
        right
        obtain ⟨n, hn, hx⟩ := isDigit_iff.mp hd
        have hx : x = Nat.digitChar n := hx
        by_cases hl : ((x :: r).length != 6 && (x :: r).length != 7) = true
        · rw [if_pos hl] at h; cases h
        · rw [if_neg hl] at h
          have hl : r.length = 5 ∨ r.length = 6 := by
            simp only [List.length_cons, Bool.and_eq_true, bne_iff_ne, ne_eq, not_and,
              Decidable.not_not] at hl
            omega
          have hlen : (x :: r).length - 3 - 1 = r.length - 3 := by simp only [List.length_cons]; omega
          have hdrop : (x :: r).drop ((x :: r).length - 3) = r.drop (r.length - 3) := by
            have : (x :: r).length - 3 = (r.length - 3) + 1 := by simp only [List.length_cons]; omega
            rw [this]; rfl
          have hsub : substr (x :: r) 1 (r.length - 3) = r.take (r.length - 3) := rfl
          simp only [hlen, hdrop, hsub] at h
          cases hh : Distance.fromHeightString (r.drop (r.length - 3)) with
          | none => simp only [hh] at h; cases h
          | some d =>
            simp only [hh] at h
            rcases (C48_height _ _).mp hh with ⟨_, rfl⟩ | ⟨m, hm, hr, rfl⟩
            · cases h
            · rw [if_neg (by simp [Distance.isReported, Distance.isValue])] at h
              by_cases hk : CloudType.cloudTypeFromString (r.take (r.length - 3)) = .NOT_REPORTED
              · rw [if_pos hk] at h; cases h
              · rw [if_neg hk] at h
                obtain rfl := Option.some.inj h
                refine ⟨r.take (r.length - 3), _, n, m, (cloudName_iff _ _).mp ⟨rfl, hk⟩, hn, hm, ?_, ?_⟩
                · rw [← hr, decimal_one, Nat.mod_eq_of_lt hn, ← hx]
                  simp
                · have : ch (x :: r) 0 = Nat.digitChar n := hx
                  rw [this, digitVal_digitChar hn]
      · rw [if_neg hd] at h
        left
        by_cases hl : (x :: r).length < 3
        · rw [if_pos hl] at h; cases h
        · rw [if_neg hl] at h
          obtain ⟨t, y, hs⟩ := List.eq_nil_or_concat (x :: r) |>.resolve_left (by simp)
          rw [List.concat_eq_append] at hs
          have hch : ch (x :: r) ((x :: r).length - 1) = y := by
            rw [hs]; simp [ch]
          have htk : (x :: r).take ((x :: r).length - 1) = t := by
            rw [hs]; simp
          simp only [hch, htk] at h
          by_cases hy : isDigit y = true
          · simp only [hy, Bool.not_true, Bool.false_eq_true, if_false] at h
            by_cases hk : CloudType.cloudTypeOrObscurationFromString t = .NOT_REPORTED
            · rw [if_pos hk] at h; cases h
            · rw [if_neg hk] at h
              obtain ⟨n, hn, rfl⟩ := isDigit_iff.mp hy
              obtain rfl := Option.some.inj h
              refine ⟨t, _, n, (obscurationName_iff _ _).mp ⟨rfl, hk⟩, hn, ?_, ?_⟩
              · rw [hs, decimal_one, Nat.mod_eq_of_lt hn]
              · rw [digitVal_digitChar hn]
          · simp only [hy, Bool.not_false, if_true] at h
            cases h
  · rintro (⟨t, k, n, hk, hn, rfl, rfl⟩ | ⟨t, k, n, m, hk, hn, hm, rfl, rfl⟩)
    · obtain ⟨h2, h4, ha⟩ := name_letters hk
      obtain ⟨hk1, hk2⟩ := (obscurationName_iff t k).mpr hk
      have hd1 : decimal 1 n = [Nat.digitChar n] := by rw [decimal_one, Nat.mod_eq_of_lt hn]
      rw [hd1]
      obtain ⟨x, r, rfl⟩ : ∃ x r, t = x :: r := by
        cases t with
        | nil => simp at h2
        | cons x r => exact ⟨x, r, rfl⟩
      unfold CloudType.fromString
      rw [if_neg (by simp)]
      rw [if_neg (by simpa [ch] using letter_not_digit (ha x (by simp)))]
      rw [if_neg (by simp only [List.length_append, List.length_cons, List.length_nil] at *; omega)]
      have hch : ch (x :: r ++ [Nat.digitChar n]) ((x :: r ++ [Nat.digitChar n]).length - 1) =
          Nat.digitChar n := by simp [ch]
      have htk : (x :: r ++ [Nat.digitChar n]).take ((x :: r ++ [Nat.digitChar n]).length - 1) = x :: r := by
        simp
      simp only [hch, htk, hk1, digitChar_isDigit hn, Bool.not_true, Bool.false_eq_true, if_false, hk2,
        digitVal_digitChar hn]
    · obtain ⟨hk1, hk2⟩ := (cloudName_iff t k).mpr hk
      have hd1 : decimal 1 n = [Nat.digitChar n] := by rw [decimal_one, Nat.mod_eq_of_lt hn]
      rw [hd1]
      have hl := cloudName_length hk
      have h3 := decimal_length 3 m
      have hs : [Nat.digitChar n] ++ t ++ decimal 3 m = Nat.digitChar n :: (t ++ decimal 3 m) := by simp
      rw [hs]
      unfold CloudType.fromString
      rw [if_neg (by simp)]
      have hch : ch (Nat.digitChar n :: (t ++ decimal 3 m)) 0 = Nat.digitChar n := rfl
      rw [hch, if_pos (digitChar_isDigit hn)]
      have hlen : (Nat.digitChar n :: (t ++ decimal 3 m)).length = t.length + 4 := by
        simp [h3]
      rw [if_neg (by rw [hlen]; rcases hl with h | h <;> rw [h] <;> decide)]
      have hdrop : (Nat.digitChar n :: (t ++ decimal 3 m)).drop
          ((Nat.digitChar n :: (t ++ decimal 3 m)).length - 3) = decimal 3 m := by
        rw [hlen, show t.length + 4 - 3 = t.length + 1 by omega]
        simp
      have hsub : substr (Nat.digitChar n :: (t ++ decimal 3 m)) 1
          ((Nat.digitChar n :: (t ++ decimal 3 m)).length - 3 - 1) = t := by
        rw [hlen, show t.length + 4 - 3 - 1 = t.length by omega]
        simp [substr]
      simp only [hdrop, hsub]
      rw [(C48_height _ _).mpr (Or.inr ⟨m, hm, rfl, rfl⟩)]
      simp [hk1, hk2, Distance.isReported, Distance.isValue, digitVal_digitChar hn]

/-! ### Runs of cloud types -/

theorem match_AZ_upTo2 {w : Str} {c : Caps} :
    Rx.Match (.upTo .AZ 2) w c ↔ c = [] ∧ w.length ≤ 2 ∧ ∀ x ∈ w, 'A' ≤ x ∧ x ≤ 'Z' := by
  simp only [Rx.upTo, Rx.match_opt, Rx.match_seq, Rx.match_AZ, Rx.match_eps]
  constructor
  · rintro (⟨_, _, _, _, ⟨x, hx, rfl, rfl⟩, ⟨_, _, _, _, ⟨y, hy, rfl, rfl⟩, ⟨rfl, rfl⟩, rfl, rfl⟩ | ⟨rfl, rfl⟩,
      rfl, rfl⟩ | ⟨rfl, rfl⟩)
    · exact ⟨rfl, by simp, by simp [hx, hy]⟩
    · exact ⟨rfl, by simp, by simp [hx]⟩
    · exact ⟨rfl, by simp, by simp⟩
  · rintro ⟨rfl, hl, ha⟩
    match w, hl, ha with
    | [], _, _ => exact Or.inr ⟨rfl, rfl⟩
    | [x], _, ha => exact Or.inl ⟨[x], [], [], [], ⟨x, ha x (by simp), rfl, rfl⟩, Or.inr ⟨rfl, rfl⟩, rfl, rfl⟩
    | [x, y], _, ha =>
      exact Or.inl ⟨[x], [y], [], [], ⟨x, ha x (by simp), rfl, rfl⟩,
        Or.inl ⟨[y], [], [], [], ⟨y, ha y (by simp), rfl, rfl⟩, ⟨rfl, rfl⟩, rfl, rfl⟩, rfl, rfl⟩

theorem match_segment {w : Str} {c : Caps} : searchRgx.Match w c ↔ c = [] ∧ Segment w := by
  unfold searchRgx Segment
  rw [Rx.match_seq, ]
  simp only [Rx.match_AZ, Rx.match_seq (a := .AZ), Rx.match_seq (a := .upTo .AZ 2), ↓match_AZ_upTo2, Rx.match_digits1]
  constructor
  · rintro ⟨_, _, _, _, ⟨x, hx, rfl, rfl⟩, ⟨_, _, _, _, ⟨y, hy, rfl, rfl⟩,
      ⟨u, _, _, _, ⟨rfl, hl, ha⟩, ⟨rfl, n, hn, rfl⟩, rfl, rfl⟩, rfl, rfl⟩, rfl, rfl⟩
    refine ⟨rfl, x :: y :: u, n, by simp, by simp only [List.length_cons]; omega, ?_, hn, rfl⟩
    intro z hz
    simp only [List.mem_cons] at hz
    rcases hz with rfl | rfl | hz
    · exact hx
    · exact hy
    · exact ha z hz
  · rintro ⟨rfl, t, n, h2, h4, ha, hn, rfl⟩
    match t, h2, h4, ha with
    | x :: y :: u, _, h4, ha =>
      exact ⟨[x], y :: u ++ decimal 1 n, [], [], ⟨x, ha x (by simp), rfl, rfl⟩,
        ⟨[y], u ++ decimal 1 n, [], [], ⟨y, ha y (by simp), rfl, rfl⟩,
          ⟨u, decimal 1 n, [], [], ⟨rfl, by simp only [List.length_cons] at h4; omega,
            fun z hz => ha z (by simp [hz])⟩, ⟨rfl, n, hn, rfl⟩, rfl, rfl⟩, rfl, rfl⟩, rfl, rfl⟩

theorem _root_.Metaf.Spec.Segment.ne_nil {w : Str} (h : Segment w) : w ≠ [] := by
  obtain ⟨t, n, h2, _, _, _, rfl⟩ := h
  intro e
  have := congrArg List.length e
  simp only [List.length_append, List.length_nil] at this
  omega

/-- A text begins with at most one segment. -/
theorem _root_.Metaf.Spec.Segment.prefix_unique {w w' r r' : Str} (h : Segment w) (h' : Segment w') (e : w ++ r = w' ++ r') :
    w = w' ∧ r = r' := by
  obtain ⟨t, n, _, _, ha, hn, rfl⟩ := h
  obtain ⟨t', n', _, _, ha', hn', rfl⟩ := h'
  rw [decimal_one, decimal_one, Nat.mod_eq_of_lt hn, Nat.mod_eq_of_lt hn'] at *
  clear * - ha ha' e hn hn'
  induction t generalizing t' with
  | nil =>
    cases t' with
    | nil => simpa using e
    | cons x t' =>
      simp only [List.nil_append, List.cons_append, List.cons.injEq] at e
      have := letter_not_digit (ha' x (by simp))
      rw [← e.1, digitChar_isDigit hn] at this
      cases this
  | cons x t ih =>
    cases t' with
    | nil =>
      simp only [List.nil_append, List.cons_append, List.cons.injEq] at e
      have := letter_not_digit (ha x (by simp))
      rw [e.1, digitChar_isDigit hn'] at this
      cases this
    | cons y t' =>
      simp only [List.cons_append, List.cons.injEq] at e
      obtain ⟨h1, h2⟩ := ih (fun c hc => ha c (by simp [hc])) t' (fun c hc => ha' c (by simp [hc])) e.2
      exact ⟨by rw [e.1, List.cons_append, h1, List.cons_append], h2⟩

theorem match_run {s : Str} {c : Caps} :
    matchRgx.Match s c ↔ c = [] ∧ ∃ l : List Str, l ≠ [] ∧ (∀ t ∈ l, Segment t) ∧ s = l.flatten := by
  have hstar : ∀ w c, Rx.Match (.star searchRgx) w c →
      c = [] ∧ ∃ l : List Str, (∀ t ∈ l, Segment t) ∧ w = l.flatten := by
    intro w c h
    generalize hr : (Rx.star searchRgx) = r at h
    induction h with
    | starNil => exact ⟨rfl, [], by simp, rfl⟩
    | starCons _ h1 _ _ ih2 =>
      cases hr
      obtain ⟨rfl, hw⟩ := match_segment.mp h1
      obtain ⟨rfl, l, hl, rfl⟩ := ih2 rfl
      refine ⟨rfl, _ :: l, ?_, rfl⟩
      intro t ht
      rcases List.mem_cons.mp ht with rfl | ht
      · exact hw
      · exact hl t ht
    | _ => cases hr
  have hstar' : ∀ l : List Str, (∀ t ∈ l, Segment t) → Rx.Match (.star searchRgx) l.flatten [] := by
    intro l
    induction l with
    | nil => intro _; exact .starNil
    | cons t l ih =>
      intro h
      exact .starCons (h t (by simp)).ne_nil (match_segment.mpr ⟨rfl, h t (by simp)⟩)
        (ih fun x hx => h x (by simp [hx]))
  unfold matchRgx Rx.plus
  rw [Rx.match_seq]
  constructor
  · rintro ⟨w, w', _, _, h1, h2, rfl, rfl⟩
    obtain ⟨rfl, hw⟩ := match_segment.mp h1
    obtain ⟨rfl, l, hl, rfl⟩ := hstar _ _ h2
    refine ⟨rfl, w :: l, by simp, ?_, rfl⟩
    intro t ht
    rcases List.mem_cons.mp ht with rfl | ht
    · exact hw
    · exact hl t ht
  · rintro ⟨rfl, l, hne, hl, rfl⟩
    cases l with
    | nil => exact absurd rfl hne
    | cons t l =>
      exact ⟨t, l.flatten, [], [], match_segment.mpr ⟨rfl, hl t (by simp)⟩,
        hstar' l fun x hx => hl x (by simp [hx]), rfl, rfl⟩

theorem searchAll_run (l : List Str) (hl : ∀ t ∈ l, Segment t) (n : Nat) (hn : l.length < n) :
    searchAll searchRgx n l.flatten = l := by
  induction l generalizing n with
  | nil =>
    cases n with
    | zero => simp at hn
    | succ n =>
      simp only [searchAll, List.flatten_nil]
      cases h : (List.filter (fun m => !m.2.1.isEmpty) (searchRgx.run [])).head? with
      | none => rfl
      | some m =>
        obtain ⟨c, w, r⟩ := m
        have := List.mem_of_mem_head? (Option.mem_def.mpr h)
        obtain ⟨hm, hw⟩ := List.mem_filter.mp this
        obtain ⟨e, _⟩ := (Rx.mem_run _ _ _ _ _).mp hm
        have : w = [] := (List.append_eq_nil_iff.mp e.symm).1
        simp [this] at hw
  | cons t l ih =>
    cases n with
    | zero => simp at hn
    | succ n =>
      have ht := hl t (by simp)
      simp only [searchAll, List.flatten_cons]
      have hmem : (([], t, l.flatten) : Caps × Str × Str) ∈ searchRgx.run (t ++ l.flatten) :=
        (Rx.mem_run _ _ _ _ _).mpr ⟨rfl, match_segment.mpr ⟨rfl, ht⟩⟩
      cases h : (List.filter (fun m => !m.2.1.isEmpty) (searchRgx.run (t ++ l.flatten))).head? with
      | none =>
        rw [List.head?_eq_none_iff, List.filter_eq_nil_iff] at h
        have := h _ hmem
        simp [ht.ne_nil] at this
      | some m =>
        obtain ⟨c, w, r⟩ := m
        have := List.mem_of_mem_head? (Option.mem_def.mpr h)
        obtain ⟨hm, hw⟩ := List.mem_filter.mp this
        obtain ⟨e, hmatch⟩ := (Rx.mem_run _ _ _ _ _).mp hm
        obtain ⟨rfl, rfl⟩ := ht.prefix_unique (match_segment.mp hmatch).2 e
        simp only
        rw [ih (fun x hx => hl x (by simp [hx])) n (by simpa using hn)]

theorem parseLoop_iff (ts : List Str) (acc : List CloudType) (ha : acc.length ≤ 8) (g : CloudTypesGroup) :
    parseLoop ts acc = some g ↔
      ∃ cs, List.Forall₂ (fun t c => CloudType.fromString t = some c) (ts.take (8 - acc.length)) cs ∧
        g = ⟨acc ++ cs⟩ := by
  induction ts generalizing acc with
  | nil =>
    simp only [parseLoop, List.take_nil, List.forall₂_nil_left_iff, exists_eq_left, List.append_nil]
    constructor
    · intro h; exact (Option.some.inj h).symm
    · rintro rfl; rfl
  | cons t ts ih =>
    simp only [parseLoop]
    by_cases h8 : acc.length ≥ cldTpMaxSize
    · rw [if_pos h8, show 8 - acc.length = 0 by simp only [cldTpMaxSize] at h8; omega]
      simp only [List.take_zero, List.forall₂_nil_left_iff, exists_eq_left, List.append_nil]
      constructor
      · intro h; exact (Option.some.inj h).symm
      · rintro rfl; rfl
    · rw [if_neg h8]
      obtain ⟨k, hk⟩ : ∃ k, 8 - acc.length = k + 1 := ⟨7 - acc.length, by simp only [cldTpMaxSize] at h8; omega⟩
      rw [hk, List.take_succ_cons]
      cases hc : CloudType.fromString t with
      | none =>
        simp only [reduceCtorEq, false_iff]
        rintro ⟨cs, h, _⟩
        cases h with
        | cons h _ => rw [hc] at h; cases h
      | some c =>
        simp only
        rw [ih _ (by simp only [List.length_append, List.length_cons, List.length_nil]; omega)]
        rw [show 8 - (acc ++ [c]).length = k by
          simp only [List.length_append, List.length_cons, List.length_nil]; omega]
        constructor
        · rintro ⟨cs, h, rfl⟩
          exact ⟨c :: cs, .cons hc h, by simp⟩
        · rintro ⟨cs, h, rfl⟩
          cases h with
          | cons h1 h2 =>
            rw [hc] at h1
            obtain rfl := Option.some.inj h1
            exact ⟨_, h2, by simp⟩

theorem okta_segment {t : Str} {c : CloudType} (h : OktaText t c) : Segment t := by
  obtain ⟨t, k, n, hk, hn, rfl, rfl⟩ := h
  obtain ⟨h2, h4, ha⟩ := name_letters hk
  exact ⟨t, n, h2, h4, ha, hn, rfl⟩

theorem segment_not_layer {t : Str} {c : CloudType} (h : Segment t) : ¬ TypeLayerText t c := by
  rintro ⟨u, k, n, m, _, hn, _, rfl, _⟩
  obtain ⟨v, i, h2, _, ha, _, e⟩ := h
  rw [decimal_one, Nat.mod_eq_of_lt hn] at e
  cases v with
  | nil => simp at h2
  | cons x v =>
    simp only [List.cons_append, List.cons.injEq] at e
    have := letter_not_digit (ha x (by simp))
    rw [← e.1, digitChar_isDigit hn] at this
    cases this

/-- C43. Cloud types in remarks: one cloud type with height, or a run of cloud types with the
eighths they cover. The first eight are stored, in the order written. -/
theorem C43_parse (s : Str) (g : CloudTypesGroup) :
    CloudTypesGroup.parse s .RMK = some g ↔
      (∃ c, TypeLayerText s c ∧ g = ⟨[c]⟩) ∨
      (∃ (l : List Str) (cs : List CloudType), l ≠ [] ∧ (∀ t ∈ l, Segment t) ∧ s = l.flatten ∧
        List.Forall₂ OktaText (l.take 8) cs ∧ g = ⟨cs⟩) := by
  have hrun : ∀ l : List Str, (∀ t ∈ l, Segment t) → ∀ cs : List CloudType,
      (List.Forall₂ (fun t c => CloudType.fromString t = some c) l cs ↔ List.Forall₂ OktaText l cs) := by
    intro l hl cs
    induction l generalizing cs with
    | nil => simp
    | cons t l ih =>
      cases cs with
      | nil => simp
      | cons c cs =>
        rw [List.forall₂_cons, List.forall₂_cons, ih (fun x hx => hl x (by simp [hx])), C43_type]
        constructor
        · rintro ⟨h | h, h2⟩
          · exact ⟨h, h2⟩
          · exact absurd h (segment_not_layer (hl t (by simp)))
        · rintro ⟨h, h2⟩
          exact ⟨Or.inl h, h2⟩
  have hflat : ∀ l : List Str, (∀ t ∈ l, Segment t) → l.length ≤ l.flatten.length := by
    intro l
    induction l with
    | nil => intro _; simp
    | cons t l ih =>
      intro h
      have h1 := List.length_pos_iff.mpr (h t (by simp)).ne_nil
      have h2 := ih fun x hx => h x (by simp [hx])
      simp only [List.flatten_cons, List.length_append, List.length_cons]
      omega
  have hloop : ∀ l : List Str, (∀ t ∈ l, Segment t) → l ≠ [] → CloudType.fromString l.flatten = none →
      (CloudTypesGroup.parse l.flatten .RMK = some g ↔ ∃ cs, List.Forall₂ OktaText (l.take 8) cs ∧ g = ⟨cs⟩) := by
    intro l hl hne hnone
    unfold CloudTypesGroup.parse
    rw [if_neg (by simp)]
    simp only [hnone]
    have hm := regexMatch_unique (match_run.mpr ⟨rfl, l, hne, hl, rfl⟩) fun c' hc' => (match_run.mp hc').1
    simp only [hm]
    rw [searchAll_run l hl _ (by have := hflat l hl; omega), parseLoop_iff _ _ (by simp)]
    constructor
    · rintro ⟨cs, h, rfl⟩
      exact ⟨cs, (hrun _ (fun x hx => hl x (List.mem_of_mem_take hx)) _).mp h, rfl⟩
    · rintro ⟨cs, h, rfl⟩
      exact ⟨cs, (hrun _ (fun x hx => hl x (List.mem_of_mem_take hx)) _).mpr h, rfl⟩
  have hsingle : ∀ c, CloudType.fromString s = some c → CloudTypesGroup.parse s .RMK = some ⟨[c]⟩ := by
    intro c hc
    unfold CloudTypesGroup.parse
    rw [if_neg (by simp)]
    simp only [hc]
  constructor
  · intro h
    cases hc : CloudType.fromString s with
    | some c =>
      rw [hsingle c hc] at h
      obtain rfl := Option.some.inj h
      rcases (C43_type s c).mp hc with ho | ho
      · exact Or.inr ⟨[s], [c], by simp, by simpa using okta_segment ho, by simp, by simpa using ho, rfl⟩
      · exact Or.inl ⟨c, ho, rfl⟩
    | none =>
      have h' := h
      unfold CloudTypesGroup.parse at h'
      rw [if_neg (by simp)] at h'
      simp only [hc] at h'
      cases hm : regexMatch matchRgx s with
      | none => simp only [hm] at h'; cases h'
      | some m =>
        obtain ⟨_, l, hne, hl, rfl⟩ := match_run.mp (regexMatch_sound hm)
        obtain ⟨cs, hcs, rfl⟩ := (hloop l hl hne hc).mp h
        exact Or.inr ⟨l, cs, hne, hl, rfl, hcs, rfl⟩
  · rintro (⟨c, hc, rfl⟩ | ⟨l, cs, hne, hl, rfl, hcs, rfl⟩)
    · exact hsingle c ((C43_type _ _).mpr (Or.inr hc))
    · cases hc : CloudType.fromString l.flatten with
      | none => exact (hloop l hl hne hc).mpr ⟨cs, hcs, rfl⟩
      | some c =>
        -- the text is a single cloud type
        have hseg : Segment l.flatten := by
          rcases (C43_type _ _).mp hc with ho | ho
          · exact okta_segment ho
          · exfalso
            cases l with
            | nil => exact hne rfl
            | cons t l =>
              obtain ⟨u, k, n, m, _, hn, _, e, _⟩ := ho
              obtain ⟨v, i, h2, _, ha, _, rfl⟩ := hl t (by simp)
              rw [decimal_one n, Nat.mod_eq_of_lt hn] at e
              cases v with
              | nil => simp at h2
              | cons x v =>
                simp only [List.flatten_cons, List.cons_append, List.cons.injEq] at e
                have := letter_not_digit (ha x (by simp))
                rw [e.1, digitChar_isDigit hn] at this
                cases this
        cases l with
        | nil => exact absurd rfl hne
        | cons t l =>
          obtain ⟨e1, e2⟩ := (hl t (by simp)).prefix_unique hseg
            (show t ++ l.flatten = (t :: l).flatten ++ [] by simp)
          have hl0 : l = [] := by
            cases l with
            | nil => rfl
            | cons u l =>
              have := (hl u (by simp)).ne_nil
              simp only [List.flatten_cons, List.append_eq_nil_iff] at e2
              exact absurd e2.1 this
          subst hl0
          simp only [List.flatten_cons, List.flatten_nil, List.append_nil] at hc ⊢
          simp only [List.take_succ_cons, List.take_nil] at hcs
          cases hcs with
          | cons h1 h2 =>
            cases h2
            rw [(C43_type _ _).mpr (Or.inl h1)] at hc
            obtain rfl := Option.some.inj hc
            have := hsingle
            unfold CloudTypesGroup.parse
            rw [if_neg (by simp)]
            simp only [(C43_type _ _).mpr (Or.inl h1)]

/-- C43. Up to eight cloud types are all stored. -/
theorem C43_all (l : List Str) (cs : List CloudType) (hne : l ≠ []) (h8 : l.length ≤ 8)
    (h : List.Forall₂ OktaText l cs) : CloudTypesGroup.parse l.flatten .RMK = some ⟨cs⟩ := by
  refine (C43_parse _ _).mpr (Or.inr ⟨l, cs, hne, ?_, rfl, by rwa [List.take_of_length_le h8], rfl⟩)
  intro t ht
  clear h8 hne
  induction h with
  | nil => cases ht
  | cons h1 _ ih =>
    rcases List.mem_cons.mp ht with rfl | ht
    · exact okta_segment h1
    · exact ih ht

/-- C43. Outside remarks there are no cloud types. -/
theorem C43_elsewhere (s : Str) (p : ReportPart) (hp : p ≠ .RMK) : CloudTypesGroup.parse s p = none := by
  unfold CloudTypesGroup.parse
  rw [if_pos hp]

/-- C43. What follows cloud types becomes part of them exactly when it is one cloud type with
height, the last one has a height too, and there are less than eight. -/
theorem C43_append (g g' : CloudTypesGroup) (s : Str) :
    g.append s = .ok (g', .APPENDED) ↔
      g.cldTp.length < 8 ∧ (∃ c ∈ g.cldTp.getLast?, c.ht.isReported = true) ∧
      ∃ c, TypeLayerText s c ∧ g' = ⟨g.cldTp ++ [c]⟩ := by
  unfold CloudTypesGroup.append
  by_cases h8 : g.cldTp.length ≥ cldTpMaxSize
  · rw [if_pos h8]
    simp only [Except.ok.injEq, Prod.mk.injEq, reduceCtorEq, and_false, false_iff, not_and]
    intro h
    simp only [cldTpMaxSize] at h8
    omega
  · rw [if_neg h8]
    simp only [cldTpMaxSize, ge_iff_le, not_le] at h8
    cases hlast : g.cldTp.getLast? with
    | none => simp
    | some last =>
      simp only
      cases hr : last.ht.isReported with
      | false => simp [hr]
      | true =>
        simp only [Bool.not_true, Bool.false_eq_true, if_false]
        cases hc : CloudType.fromString s with
        | none =>
          simp only [Except.ok.injEq, Prod.mk.injEq, reduceCtorEq, and_false, false_iff, not_and]
          rintro _ _ ⟨c, h, _⟩
          rw [(C43_type _ _).mpr (Or.inr h)] at hc
          cases hc
        | some c =>
          simp only
          rcases (C43_type s c).mp hc with ho | ho
          · have hn : c.ht.isReported = false := by
              obtain ⟨_, _, _, _, _, _, rfl⟩ := ho
              rfl
            simp only [hn, Bool.not_false, if_true, Except.ok.injEq, Prod.mk.injEq, reduceCtorEq, and_false,
              false_iff, not_and]
            rintro _ _ ⟨c', h, _⟩
            exact segment_not_layer (okta_segment ho) h
          · have hn : c.ht.isReported = true := by
              obtain ⟨_, _, _, _, _, _, _, _, rfl⟩ := ho
              rfl
            simp only [hn, Bool.not_true, Bool.false_eq_true, if_false, Except.ok.injEq, Prod.mk.injEq, and_true]
            constructor
            · intro e
              exact ⟨h8, ⟨last, rfl, hr⟩, c, ho, e.symm⟩
            · rintro ⟨_, _, c', h, rfl⟩
              rw [(C43_type _ _).mpr (Or.inr h)] at hc
              rw [Option.some.inj hc]

/-- Cloud types that arise from the texts of a report. -/
inductive CloudTypesBuilt : CloudTypesGroup → Prop
  | parse {s : Str} {p : ReportPart} {g : CloudTypesGroup} : CloudTypesGroup.parse s p = some g → CloudTypesBuilt g
  | append {s : Str} {g g' : CloudTypesGroup} {r : AppendResult} :
      CloudTypesBuilt g → g.append s = .ok (g', r) → CloudTypesBuilt g'

/-- C43. Between one and eight cloud types are stored, each with not more than nine eighths. -/
theorem C43_count {g : CloudTypesGroup} (h : CloudTypesBuilt g) :
    1 ≤ g.cldTp.length ∧ g.cldTp.length ≤ 8 ∧ ∀ c ∈ g.cldTp, c.okt ≤ 9 ∧ c.tp ≠ .NOT_REPORTED := by
  have hnr : ∀ p ∈ cloudNames ++ obscurationNames, p.2 ≠ .NOT_REPORTED := by decide
  have hok : ∀ {t : Str} {c : CloudType}, OktaText t c ∨ TypeLayerText t c → c.okt ≤ 9 ∧ c.tp ≠ .NOT_REPORTED := by
    rintro t c (⟨_, _, n, hk, hn, _, rfl⟩ | ⟨_, _, n, _, hk, hn, _, _, rfl⟩)
    · exact ⟨by simp only; omega, hnr _ hk⟩
    · exact ⟨by simp only; omega, hnr _ (List.mem_append_left _ hk)⟩
  have hall : ∀ {l : List Str} {cs : List CloudType}, List.Forall₂ OktaText l cs →
      ∀ c ∈ cs, c.okt ≤ 9 ∧ c.tp ≠ .NOT_REPORTED := by
    intro l cs h
    induction h with
    | nil => simp
    | cons h1 _ ih =>
      intro c hc
      rcases List.mem_cons.mp hc with rfl | hc
      · exact hok (Or.inl h1)
      · exact ih c hc
  induction h with
  | @parse s p g h =>
    by_cases hp : p = .RMK
    · subst hp
      rcases (C43_parse s g).mp h with ⟨c, hc, rfl⟩ | ⟨l, cs, hne, hl, rfl, hcs, rfl⟩
      · exact ⟨by simp, by simp, by simpa using hok (Or.inr hc)⟩
      · have := hcs.length_eq
        rw [List.length_take] at this
        have h1 := List.length_pos_iff.mpr hne
        exact ⟨by simp only; omega, by simp only; omega, hall hcs⟩
    · rw [C43_elsewhere s p hp] at h
      cases h
  | @append s g g' r _ h ih =>
    by_cases hr : r = .APPENDED
    · subst hr
      obtain ⟨h8, _, c, hc, rfl⟩ := (C43_append g g' s).mp h
      refine ⟨by simp, by simp only [List.length_append, List.length_cons, List.length_nil]; omega, ?_⟩
      intro x hx
      rcases List.mem_append.mp hx with hx | hx
      · exact ih.2.2 x hx
      · rw [List.mem_singleton.mp hx]; exact hok (Or.inr hc)
    · have : g' = g := by
        unfold CloudTypesGroup.append at h
        split at h
        · exact (Prod.mk.inj (Except.ok.inj h)).1.symm
        · split at h
          · cases h
          · split at h
            · exact (Prod.mk.inj (Except.ok.inj h)).1.symm
            · split at h
              · exact (Prod.mk.inj (Except.ok.inj h)).1.symm
              · split at h
                · exact (Prod.mk.inj (Except.ok.inj h)).1.symm
                · exact absurd (Prod.mk.inj (Except.ok.inj h)).2.symm hr
      rw [this]
      exact ih

/-- C43. Cloud types are valid exactly when each covers between one and eight eighths. -/
theorem C43_valid (g : CloudTypesGroup) :
    g.isValid = true ↔ ∀ c ∈ g.cldTp, 1 ≤ c.okt ∧ c.okt ≤ 8 := by
  simp [CloudTypesGroup.isValid, CloudType.isValid]

/-! ### Cases -/

/-- Nine cloud types: the last one is left out. -/
example : CloudTypesGroup.parse c!"SC1CI2CU3AC4FG5SN6ST7CB8AS9" .RMK =
    some ⟨[⟨.STRATOCUMULUS, {}, 1⟩, ⟨.CIRRUS, {}, 2⟩, ⟨.CUMULUS, {}, 3⟩, ⟨.ALTOCUMULUS, {}, 4⟩, ⟨.FOG, {}, 5⟩,
      ⟨.SNOW, {}, 6⟩, ⟨.STRATUS, {}, 7⟩, ⟨.CUMULONIMBUS, {}, 8⟩]⟩ := by
  decide +kernel

example : CloudTypesGroup.parse [c!"ACC1", c!"BLSN7"].flatten .RMK =
    some ⟨[⟨.ALTOCUMULUS_CASTELLANUS, {}, 1⟩, ⟨.BLOWING_SNOW, {}, 7⟩]⟩ :=
  C43_all _ _ (by simp) (by simp) (.cons ⟨c!"ACC", _, 1, by decide, by decide, rfl, rfl⟩
    (.cons ⟨c!"BLSN", _, 7, by decide, by decide, rfl, rfl⟩ .nil))

example : (CloudTypesGroup.mk [⟨.CUMULUS, ⟨.NONE, some 2500, .FEET⟩, 1⟩]).append c!"8ACC100" =
    .ok (⟨[⟨.CUMULUS, ⟨.NONE, some 2500, .FEET⟩, 1⟩,
      ⟨.ALTOCUMULUS_CASTELLANUS, ⟨.NONE, some 10000, .FEET⟩, 8⟩]⟩, .APPENDED) :=
  (C43_append _ _ _).mpr ⟨by simp, ⟨_, rfl, rfl⟩, _,
    ⟨c!"ACC", _, 8, 100, by decide, by decide, by decide, rfl, rfl⟩, rfl⟩

end Metaf.Props
