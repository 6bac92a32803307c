import Verif.Regex

/-!
Declarative meaning of the regular expressions and its agreement with the backtracking matcher.
-/

namespace Metaf

namespace Rx

/-- `Match r w c`: the text `w` matches `r` as a whole with sub-matches `c`. -/
inductive Match : Rx → Str → Caps → Prop
  | eps : Match .eps [] []
  | set {rs c} : inSet rs c = true → Match (.set rs) [c] []
  | seq {a b u v ca cb} : Match a u ca → Match b v cb → Match (.seq a b) (u ++ v) (cb ++ ca)
  | altl {a b u ca} : Match a u ca → Match (.alt a b) u ca
  | altr {a b u ca} : Match b u ca → Match (.alt a b) u ca
  | starNil {a} : Match (.star a) [] []
  | starCons {a u v ca cb} : u ≠ [] → Match a u ca → Match (.star a) v cb →
      Match (.star a) (u ++ v) (cb ++ ca)
  | cap {i a u ca} : Match a u ca → Match (.cap i a) u ((i, u) :: ca)

theorem match_eps {w : Str} {c : Caps} : Match .eps w c ↔ w = [] ∧ c = [] := by
  constructor
  · rintro ⟨⟩; exact ⟨rfl, rfl⟩
  · rintro ⟨rfl, rfl⟩; exact .eps

theorem match_set {rs : List (Char × Char)} {w : Str} {c : Caps} :
    Match (.set rs) w c ↔ ∃ x, inSet rs x = true ∧ w = [x] ∧ c = [] := by
  constructor
  · rintro ⟨⟩; exact ⟨_, by assumption, rfl, rfl⟩
  · rintro ⟨x, h, rfl, rfl⟩; exact .set h

theorem match_seq {a b : Rx} {w : Str} {c : Caps} :
    Match (.seq a b) w c ↔
      ∃ u v ca cb, Match a u ca ∧ Match b v cb ∧ w = u ++ v ∧ c = cb ++ ca := by
  constructor
  · rintro ⟨⟩; exact ⟨_, _, _, _, by assumption, by assumption, rfl, rfl⟩
  · rintro ⟨u, v, ca, cb, h1, h2, rfl, rfl⟩; exact .seq h1 h2

theorem match_alt {a b : Rx} {w : Str} {c : Caps} :
    Match (.alt a b) w c ↔ Match a w c ∨ Match b w c := by
  constructor
  · rintro ⟨⟩
    · left; assumption
    · right; assumption
  · rintro (h | h)
    · exact .altl h
    · exact .altr h

theorem match_cap {i : Nat} {a : Rx} {w : Str} {c : Caps} :
    Match (.cap i a) w c ↔ ∃ ca, Match a w ca ∧ c = (i, w) :: ca := by
  constructor
  · rintro ⟨⟩; exact ⟨_, by assumption, rfl⟩
  · rintro ⟨ca, h, rfl⟩; exact .cap h

theorem match_star {a : Rx} {w : Str} {c : Caps} :
    Match (.star a) w c ↔ (w = [] ∧ c = []) ∨
      ∃ u v ca cb, u ≠ [] ∧ Match a u ca ∧ Match (.star a) v cb ∧ w = u ++ v ∧ c = cb ++ ca := by
  constructor
  · intro h
    cases h with
    | starNil => left; exact ⟨rfl, rfl⟩
    | starCons h1 h2 h3 => right; exact ⟨_, _, _, _, h1, h2, h3, rfl, rfl⟩
  · rintro (⟨rfl, rfl⟩ | ⟨u, v, ca, cb, h1, h2, h3, rfl, rfl⟩)
    · exact .starNil
    · exact .starCons h1 h2 h3

private theorem mem_iter {a : Rx}
    (ih : ∀ s c w r, (c, w, r) ∈ run a s ↔ s = w ++ r ∧ Match a w c) :
    ∀ n s c w r, s.length ≤ n →
      ((c, w, r) ∈ run.iter (run a) n s ↔ s = w ++ r ∧ Match (.star a) w c) := by
  intro n
  induction n with
  | zero =>
    intro s c w r hs
    have : s = [] := List.length_eq_zero_iff.mp (Nat.le_zero.mp hs)
    subst this
    simp only [run.iter, List.mem_singleton, Prod.mk.injEq]
    constructor
    · rintro ⟨rfl, rfl, rfl⟩; exact ⟨rfl, .starNil⟩
    · rintro ⟨h, hm⟩
      have h' := List.append_eq_nil_iff.mp h.symm
      obtain ⟨rfl, rfl⟩ := h'
      rcases match_star.mp hm with ⟨_, rfl⟩ | ⟨u, v, _, _, hu, _, _, huv, _⟩
      · exact ⟨rfl, rfl, rfl⟩
      · exact absurd (List.append_eq_nil_iff.mp huv.symm).1 hu
  | succ n ihn =>
    intro s c w r hs
    simp only [run.iter, List.mem_append, List.mem_flatMap, List.mem_filter, List.mem_map,
      List.mem_singleton, Prod.mk.injEq, Prod.exists]
    constructor
    · rintro (⟨ca, wa, ra, ⟨hm, hne⟩, cb, wb, rb, hit, rfl, rfl, rfl⟩ | ⟨rfl, rfl, rfl⟩)
      · obtain ⟨rfl, hma⟩ := (ih _ _ _ _).mp hm
        have hne' : wa ≠ [] := by simpa using hne
        have hlen : ra.length ≤ n := by
          have : 0 < wa.length := List.length_pos_iff.mpr hne'
          simp only [List.length_append] at hs
          omega
        obtain ⟨rfl, hmb⟩ := (ihn _ _ _ _ hlen).mp hit
        exact ⟨by simp, .starCons hne' hma hmb⟩
      · exact ⟨rfl, .starNil⟩
    · rintro ⟨rfl, hm⟩
      rcases match_star.mp hm with ⟨rfl, rfl⟩ | ⟨u, v, ca, cb, hu, hma, hmb, rfl, rfl⟩
      · right; exact ⟨rfl, rfl, rfl⟩
      · left
        have hlen : (v ++ r).length ≤ n := by
          have : 0 < u.length := List.length_pos_iff.mpr hu
          simp only [List.length_append] at hs ⊢
          omega
        refine ⟨ca, u, v ++ r, ⟨(ih _ _ _ _).mpr ⟨by simp, hma⟩, by simpa using hu⟩, cb, v, r,
          (ihn _ _ _ _ hlen).mpr ⟨rfl, hmb⟩, rfl, rfl, rfl⟩

/-- The matcher lists exactly the matches of prefixes of the input. -/
theorem mem_run (x : Rx) : ∀ s c w r, (c, w, r) ∈ run x s ↔ s = w ++ r ∧ Match x w c := by
  induction x with
  | eps =>
    intro s c w r
    simp only [run, List.mem_singleton, Prod.mk.injEq, match_eps]
    constructor
    · rintro ⟨rfl, rfl, rfl⟩; simp
    · rintro ⟨rfl, rfl, rfl⟩; simp
  | set rs =>
    intro s c w r
    simp only [run, match_set]
    cases s with
    | nil =>
      simp only [List.not_mem_nil, false_iff, not_and, not_exists]
      intro h x
      have := (List.append_eq_nil_iff.mp h.symm).1
      subst this; simp
    | cons a s =>
      by_cases h : inSet rs a = true
      · simp only [h, if_true, List.mem_singleton, Prod.mk.injEq]
        constructor
        · rintro ⟨rfl, rfl, rfl⟩; exact ⟨rfl, a, h, rfl, rfl⟩
        · rintro ⟨h1, x, hx, rfl, rfl⟩
          simp only [List.singleton_append, List.cons.injEq] at h1
          obtain ⟨rfl, rfl⟩ := h1
          exact ⟨rfl, rfl, rfl⟩
      · simp only [h, Bool.false_eq_true, if_false, List.not_mem_nil, false_iff, not_and, not_exists]
        intro h1 x hx hw
        subst hw
        simp only [List.singleton_append, List.cons.injEq] at h1
        rw [h1.1] at h
        exact absurd hx h
  | seq a b iha ihb =>
    intro s c w r
    simp only [run, List.mem_flatMap, List.mem_map, Prod.mk.injEq, Prod.exists, match_seq]
    constructor
    · rintro ⟨ca, wa, ra, ha, cb, wb, rb, hb, rfl, rfl, rfl⟩
      obtain ⟨rfl, hma⟩ := (iha _ _ _ _).mp ha
      obtain ⟨rfl, hmb⟩ := (ihb _ _ _ _).mp hb
      exact ⟨by simp, wa, wb, ca, cb, hma, hmb, rfl, rfl⟩
    · rintro ⟨rfl, u, v, ca, cb, hma, hmb, rfl, rfl⟩
      exact ⟨ca, u, v ++ r, (iha _ _ _ _).mpr ⟨by simp, hma⟩, cb, v, r,
        (ihb _ _ _ _).mpr ⟨rfl, hmb⟩, rfl, rfl, rfl⟩
  | alt a b iha ihb =>
    intro s c w r
    simp only [run, List.mem_append, iha, ihb, match_alt]
    constructor
    · rintro (⟨h, hm⟩ | ⟨h, hm⟩)
      · exact ⟨h, .inl hm⟩
      · exact ⟨h, .inr hm⟩
    · rintro ⟨h, hm | hm⟩
      · exact .inl ⟨h, hm⟩
      · exact .inr ⟨h, hm⟩
  | star a ih =>
    intro s c w r
    simp only [run]
    exact mem_iter ih s.length s c w r (Nat.le_refl _)
  | cap i a ih =>
    intro s c w r
    simp only [run, List.mem_map, Prod.mk.injEq, Prod.exists, match_cap]
    constructor
    · rintro ⟨ca, wa, ra, h, rfl, rfl, rfl⟩
      obtain ⟨h1, h2⟩ := (ih _ _ _ _).mp h
      exact ⟨h1, ca, h2, rfl⟩
    · rintro ⟨h1, ca, h2, rfl⟩
      exact ⟨ca, w, r, (ih _ _ _ _).mpr ⟨h1, h2⟩, rfl, rfl, rfl⟩

end Rx

/-- Whatever `regexMatch` reports is a match of the whole input. -/
theorem regexMatch_sound {r : Rx} {s : Str} {m : Caps} (h : regexMatch r s = some m) :
    r.Match s m := by
  simp only [regexMatch, Option.map_eq_some_iff] at h
  obtain ⟨⟨c, w, t⟩, hf, rfl⟩ := h
  have hmem := List.mem_of_find?_eq_some hf
  have hp := List.find?_some hf
  have ht : t = [] := by simpa using hp
  subst ht
  have := (Rx.mem_run r s c w []).mp hmem
  simp only [List.append_nil] at this
  rw [this.1]; exact this.2

/-- `regexMatch` fails only if no match of the whole input exists. -/
theorem regexMatch_complete {r : Rx} {s : Str} {c : Caps} (h : r.Match s c) :
    ∃ m, regexMatch r s = some m := by
  have hmem := (Rx.mem_run r s c s []).mpr ⟨by simp, h⟩
  have : ((r.run s).find? fun m => m.2.2.isEmpty).isSome := by
    rw [List.find?_isSome]
    exact ⟨_, hmem, by simp⟩
  obtain ⟨x, hx⟩ := Option.isSome_iff_exists.mp this
  exact ⟨x.1, by simp [regexMatch, hx]⟩

/-- `regexMatch` succeeds exactly on the texts that match. -/
theorem regexMatch_isSome_iff {r : Rx} {s : Str} :
    (regexMatch r s).isSome = true ↔ ∃ c, r.Match s c := by
  constructor
  · intro h
    obtain ⟨m, hm⟩ := Option.isSome_iff_exists.mp h
    exact ⟨m, regexMatch_sound hm⟩
  · rintro ⟨c, h⟩
    obtain ⟨m, hm⟩ := regexMatch_complete h
    simp [hm]

/-- When all matches of the whole input have the same sub-matches, these are reported. -/
theorem regexMatch_unique {r : Rx} {s : Str} {c : Caps} (h : r.Match s c)
    (hu : ∀ c', r.Match s c' → c' = c) : regexMatch r s = some c := by
  obtain ⟨m, hm⟩ := regexMatch_complete h
  rw [hm, hu m (regexMatch_sound hm)]

theorem regexMatch_eq_none_iff {r : Rx} {s : Str} :
    regexMatch r s = none ↔ ∀ c, ¬ r.Match s c := by
  constructor
  · intro h c hc
    obtain ⟨m, hm⟩ := regexMatch_complete hc
    rw [h] at hm; cases hm
  · intro h
    cases hm : regexMatch r s with
    | none => rfl
    | some m => exact absurd (regexMatch_sound hm) (h m)

namespace Rx

/-! ### Sub-matches -/

/-- The capturing groups of a regular expression. -/
def capList : Rx → List (Nat × Rx)
  | .eps => []
  | .set _ => []
  | .seq a b => a.capList ++ b.capList
  | .alt a b => a.capList ++ b.capList
  | .star a => a.capList
  | .cap i a => (i, a) :: a.capList

/-- Each sub-match is matched by the expression inside the parentheses. -/
theorem Match.cap_mem {r : Rx} {s : Str} {c : Caps} (h : Match r s c) :
    ∀ {i w}, (i, w) ∈ c → ∃ a c', (i, a) ∈ r.capList ∧ Match a w c' := by
  induction h with
  | eps => intro i w hm; simp at hm
  | set _ => intro i w hm; simp at hm
  | seq _ _ ih1 ih2 =>
    intro i w hm
    rcases List.mem_append.mp hm with h | h
    · obtain ⟨a, c', h1, h2⟩ := ih2 h
      exact ⟨a, c', by simp [capList, h1], h2⟩
    · obtain ⟨a, c', h1, h2⟩ := ih1 h
      exact ⟨a, c', by simp [capList, h1], h2⟩
  | altl _ ih =>
    intro i w hm
    obtain ⟨a, c', h1, h2⟩ := ih hm
    exact ⟨a, c', by simp [capList, h1], h2⟩
  | altr _ ih =>
    intro i w hm
    obtain ⟨a, c', h1, h2⟩ := ih hm
    exact ⟨a, c', by simp [capList, h1], h2⟩
  | starNil => intro i w hm; simp at hm
  | starCons _ _ _ ih1 ih2 =>
    intro i w hm
    rcases List.mem_append.mp hm with h | h
    · exact ih2 h
    · exact ih1 h
  | @cap j a u ca hm0 ih =>
    intro i w hm
    rcases List.mem_cons.mp hm with h | h
    · simp only [Prod.mk.injEq] at h
      obtain ⟨rfl, rfl⟩ := h
      exact ⟨a, ca, by simp [capList], hm0⟩
    · obtain ⟨b, c', h1, h2⟩ := ih h
      exact ⟨b, c', by simp [capList, h1], h2⟩

theorem _root_.Metaf.Caps.str_cases (m : Caps) (i : Nat) : m.str i = [] ∨ (i, m.str i) ∈ m := by
  simp only [Caps.str]
  cases h : m.find? (fun p => p.1 == i) with
  | none => left; rfl
  | some p =>
    right
    have h1 := List.mem_of_find?_eq_some h
    have h2 := List.find?_some h
    simp only [beq_iff_eq] at h2
    simp only [Option.map_some, Option.getD_some]
    rw [← h2]
    exact h1

/-- A sub-match is empty or matched by the expression inside the parentheses. -/
theorem Match.str {r : Rx} {s : Str} {m : Caps} (h : Match r s m) (i : Nat) :
    m.str i = [] ∨ ∃ a c', (i, a) ∈ r.capList ∧ Match a (m.str i) c' := by
  rcases m.str_cases i with h1 | h1
  · left; exact h1
  · right; exact h.cap_mem h1

/-! ### Inversion lemmas -/

theorem inSet_single {a c : Char} : inSet [(a, a)] c = true ↔ c = a := by
  simp only [inSet, List.any_cons, List.any_nil, Bool.or_false, Bool.and_eq_true, decide_eq_true_eq]
  constructor
  · intro h; exact Char.toNat_inj.mp (by omega)
  · rintro rfl; exact ⟨Nat.le_refl _, Nat.le_refl _⟩

theorem inSet_oneOf {s : Str} {c : Char} : inSet (s.map fun c => (c, c)) c = true ↔ c ∈ s := by
  simp only [inSet, List.any_map, List.any_eq_true, Function.comp_apply, Bool.and_eq_true,
    decide_eq_true_eq]
  constructor
  · rintro ⟨x, hx, h1, h2⟩
    have : c = x := Char.toNat_inj.mp (by omega)
    rw [this]; exact hx
  · intro h; exact ⟨c, h, Nat.le_refl _, Nat.le_refl _⟩

theorem match_chr {a : Char} {w : Str} {c : Caps} : Match (chr a) w c ↔ w = [a] ∧ c = [] := by
  simp only [chr, match_set, inSet_single]
  constructor
  · rintro ⟨x, rfl, rfl, rfl⟩; exact ⟨rfl, rfl⟩
  · rintro ⟨rfl, rfl⟩; exact ⟨a, rfl, rfl, rfl⟩

theorem match_oneOf {s w : Str} {c : Caps} :
    Match (oneOf s) w c ↔ ∃ x ∈ s, w = [x] ∧ c = [] := by
  simp only [oneOf, match_set, inSet_oneOf]

theorem inSet_digit {c : Char} : inSet [('0', '9')] c = true ↔ isDigit c = true := by
  simp [inSet, isDigit]

theorem match_d {w : Str} {c : Caps} :
    Match d w c ↔ ∃ x, isDigit x = true ∧ w = [x] ∧ c = [] := by
  simp only [d, match_set, inSet_digit]

theorem match_opt {a : Rx} {w : Str} {c : Caps} :
    Match (opt a) w c ↔ Match a w c ∨ (w = [] ∧ c = []) := by
  simp only [opt, match_alt, match_eps]

theorem match_lit {s w : Str} {c : Caps} : Match (lit s) w c ↔ w = s ∧ c = [] := by
  induction s generalizing w c with
  | nil => simp [lit, match_eps]
  | cons a s ih =>
    cases s with
    | nil => simp [lit, match_chr]
    | cons b s =>
      rw [lit]
      · simp only [match_seq, match_chr, ih]
        constructor
        · rintro ⟨u, v, ca, cb, ⟨rfl, rfl⟩, ⟨rfl, rfl⟩, rfl, rfl⟩; exact ⟨rfl, rfl⟩
        · rintro ⟨rfl, rfl⟩; exact ⟨_, _, _, _, ⟨rfl, rfl⟩, ⟨rfl, rfl⟩, rfl, rfl⟩
      · simp

end Rx

end Metaf
