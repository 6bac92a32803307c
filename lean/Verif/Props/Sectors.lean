import Verif.Props.DistanceText
import Verif.Props.Distance
import Verif.Proofs.RegexText
import Verif.Proofs.Util

/-!
Property C59: direction sectors in text.
-/

namespace Metaf.Props

open Metaf Metaf.Spec Metaf.Direction

/-- Words joined by dashes. -/
def dashed : Str → List Str → Str
  | x, [] => x
  | x, y :: rest => x ++ '-' :: dashed y rest

/-- `w` is the name of an octant. -/
def IsOctant (w : Str) : Prop := ∃ n, (w, n) ∈ octantNames

theorem split_char {a : Char} {x x' r r' : Str} (hx : a ∉ x) (hx' : a ∉ x')
    (h : x ++ a :: r = x' ++ a :: r') : x = x' ∧ r = r' := by
  induction x generalizing x' with
  | nil =>
    cases x' with
    | nil => simpa using h
    | cons c t => simp only [List.nil_append, List.cons_append, List.cons.injEq] at h
                  exact absurd (h.1 ▸ List.mem_cons_self) hx'
  | cons c t ih =>
    cases x' with
    | nil => simp only [List.nil_append, List.cons_append, List.cons.injEq] at h
             exact absurd (h.1 ▸ List.mem_cons_self) hx
    | cons c' t' =>
      simp only [List.cons_append, List.cons.injEq] at h
      have := ih (fun hm => hx (List.mem_cons_of_mem _ hm)) (fun hm => hx' (List.mem_cons_of_mem _ hm)) h.2
      exact ⟨by rw [h.1, this.1], this.2⟩

theorem dashed_inj {x x' : Str} {l l' : List Str} (hx : '-' ∉ x) (hx' : '-' ∉ x')
    (hl : ∀ w ∈ l, '-' ∉ w) (hl' : ∀ w ∈ l', '-' ∉ w) (h : dashed x l = dashed x' l') :
    x = x' ∧ l = l' := by
  induction l generalizing x x' l' with
  | nil =>
    cases l' with
    | nil => exact ⟨h, rfl⟩
    | cons w t =>
      simp only [dashed] at h
      exact absurd (h ▸ by simp) hx
  | cons w t ih =>
    cases l' with
    | nil =>
      simp only [dashed] at h
      exact absurd (h ▸ by simp) hx'
    | cons w' t' =>
      simp only [dashed] at h
      obtain ⟨rfl, h2⟩ := split_char hx hx' h
      obtain ⟨rfl, rfl⟩ := ih (hl _ (by simp)) (hl' _ (by simp)) (fun w hw => hl w (by simp [hw]))
        (fun w hw => hl' w (by simp [hw])) h2
      exact ⟨rfl, rfl⟩

/-- The ends of a sector as the regular expression accepts them. -/
def EndLike (w : Str) : Prop :=
  ∃ a ∈ c!"NSWE", w = [a] ∨ ∃ b ∈ c!"WE", w = [a, b]

theorem match_end {w : Str} {c : Caps} :
    Rx.Match (Rx.oneOf c!"NSWE" ⬝ Rx.opt (Rx.oneOf c!"WE")) w c ↔ EndLike w ∧ c = [] := by
  simp only [Rx.match_seq, Rx.match_opt, Rx.match_oneOf, EndLike]
  constructor
  · rintro ⟨_, _, _, _, ⟨a, ha, rfl, rfl⟩, (⟨b, hb, rfl, rfl⟩ | ⟨rfl, rfl⟩), rfl, rfl⟩
    · exact ⟨⟨a, ha, Or.inr ⟨b, hb, rfl⟩⟩, rfl⟩
    · exact ⟨⟨a, ha, Or.inl rfl⟩, rfl⟩
  · rintro ⟨⟨a, ha, (rfl | ⟨b, hb, rfl⟩)⟩, rfl⟩
    · exact ⟨[a], [], [], [], ⟨a, ha, rfl, rfl⟩, Or.inr ⟨rfl, rfl⟩, rfl, rfl⟩
    · exact ⟨[a], [b], [], [], ⟨a, ha, rfl, rfl⟩, Or.inl ⟨b, hb, rfl, rfl⟩, rfl, rfl⟩

theorem octant_iff {w : Str} : IsOctant w ↔
    (∃ a ∈ c!"NSWE", w = [a]) ∨ ∃ a ∈ c!"NS", ∃ b ∈ c!"WE", w = [a, b] := by
  unfold IsOctant octantNames
  simp only [List.mem_cons, Prod.mk.injEq, List.not_mem_nil, or_false]
  constructor
  · rintro ⟨n, h⟩
    rcases h with ⟨rfl, -⟩ | ⟨rfl, -⟩ | ⟨rfl, -⟩ | ⟨rfl, -⟩ | ⟨rfl, -⟩ | ⟨rfl, -⟩ | ⟨rfl, -⟩ | ⟨rfl, -⟩ <;>
      simp
  · rintro (⟨a, (rfl | rfl | rfl | rfl), rfl⟩ | ⟨a, (rfl | rfl), b, (rfl | rfl), rfl⟩) <;> simp

theorem octant_no_dash {w : Str} (h : IsOctant w) : '-' ∉ w := by
  rcases octant_iff.mp h with ⟨a, ha, rfl⟩ | ⟨a, ha, b, hb, rfl⟩
  · simp only [List.mem_cons, List.not_mem_nil, or_false] at ha
    rcases ha with rfl | rfl | rfl | rfl <;> decide
  · simp only [List.mem_cons, List.not_mem_nil, or_false] at ha hb
    rcases ha with rfl | rfl <;> rcases hb with rfl | rfl <;> decide

theorem end_no_dash {w : Str} (h : EndLike w) : '-' ∉ w := by
  obtain ⟨a, ha, (rfl | ⟨b, hb, rfl⟩)⟩ := h
  · simp only [List.mem_cons, List.not_mem_nil, or_false] at ha
    rcases ha with rfl | rfl | rfl | rfl <;> decide
  · simp only [List.mem_cons, List.not_mem_nil, or_false] at ha hb
    rcases ha with rfl | rfl | rfl | rfl <;> rcases hb with rfl | rfl <;> decide

theorem octant_end {w : Str} (h : IsOctant w) : EndLike w := by
  rcases octant_iff.mp h with ⟨a, ha, rfl⟩ | ⟨a, ha, b, hb, rfl⟩
  · exact ⟨a, ha, Or.inl rfl⟩
  · exact ⟨a, by simp only [List.mem_cons, List.not_mem_nil, or_false] at ha ⊢; tauto,
      Or.inr ⟨b, hb, rfl⟩⟩

/-- One step of a sector. -/
theorem match_step {w : Str} {c : Caps} :
    Rx.Match ((Rx.chr '-' ⬝ Rx.oneOf c!"NSWE") ∥ (Rx.chr '-' ⬝ Rx.oneOf c!"NS" ⬝ Rx.oneOf c!"WE")) w c ↔
      (∃ v, IsOctant v ∧ w = '-' :: v) ∧ c = [] := by
  simp only [Rx.match_alt, Rx.match_seq, Rx.match_chr, Rx.match_oneOf, octant_iff]
  constructor
  · rintro (⟨_, _, _, _, ⟨rfl, rfl⟩, ⟨a, ha, rfl, rfl⟩, rfl, rfl⟩ |
      ⟨_, _, _, _, ⟨rfl, rfl⟩, ⟨_, _, _, _, ⟨a, ha, rfl, rfl⟩, ⟨b, hb, rfl, rfl⟩, rfl, rfl⟩, rfl, rfl⟩)
    · exact ⟨⟨[a], Or.inl ⟨a, ha, rfl⟩, rfl⟩, rfl⟩
    · exact ⟨⟨[a, b], Or.inr ⟨a, ha, b, hb, rfl⟩, rfl⟩, rfl⟩
  · rintro ⟨⟨v, (⟨a, ha, rfl⟩ | ⟨a, ha, b, hb, rfl⟩), rfl⟩, rfl⟩
    · exact Or.inl ⟨['-'], [a], [], [], ⟨rfl, rfl⟩, ⟨a, ha, rfl, rfl⟩, rfl, rfl⟩
    · exact Or.inr ⟨['-'], [a, b], [], [], ⟨rfl, rfl⟩,
        ⟨[a], [b], [], [], ⟨a, ha, rfl, rfl⟩, ⟨b, hb, rfl, rfl⟩, rfl, rfl⟩, rfl, rfl⟩

theorem match_steps {w : Str} {c : Caps} :
    Rx.Match (.star ((Rx.chr '-' ⬝ Rx.oneOf c!"NSWE") ∥
      (Rx.chr '-' ⬝ Rx.oneOf c!"NS" ⬝ Rx.oneOf c!"WE"))) w c ↔
      (∃ mid : List Str, (∀ v ∈ mid, IsOctant v) ∧ w = mid.flatMap ('-' :: ·)) ∧ c = [] := by
  constructor
  · intro h
    generalize hn : w.length = n
    induction n using Nat.strongRecOn generalizing w c with
    | _ n ih =>
      rcases Rx.match_star.mp h with ⟨rfl, rfl⟩ | ⟨u, v, ca, cb, hu, h1, h2, rfl, rfl⟩
      · exact ⟨⟨[], by simp, rfl⟩, rfl⟩
      · obtain ⟨⟨x, hx, rfl⟩, rfl⟩ := match_step.mp h1
        obtain ⟨⟨mid, hm, rfl⟩, rfl⟩ := ih _ (by simp at hn; omega) h2 rfl
        exact ⟨⟨x :: mid, by simpa using ⟨hx, hm⟩, by simp⟩, rfl⟩
  · rintro ⟨⟨mid, hm, rfl⟩, rfl⟩
    induction mid with
    | nil => exact Rx.match_star.mpr (Or.inl ⟨rfl, rfl⟩)
    | cons x t ih =>
      exact Rx.match_star.mpr (Or.inr ⟨'-' :: x, t.flatMap ('-' :: ·), [], [], by simp,
        match_step.mpr ⟨⟨x, hm x (by simp), rfl⟩, rfl⟩, ih (fun v hv => hm v (by simp [hv])), by simp, rfl⟩)

theorem dashed_eq (x : Str) (l : List Str) : dashed x l = x ++ l.flatMap ('-' :: ·) := by
  induction l generalizing x with
  | nil => simp [dashed]
  | cons y t ih => simp [dashed, ih]

theorem match_sector (s : Str) (c : Caps) : sectorRgx.Match s c ↔
    ∃ f : Str × List Str × Str, (EndLike f.1 ∧ (∀ v ∈ f.2.1, IsOctant v) ∧ EndLike f.2.2) ∧
      s = dashed f.1 (f.2.1 ++ [f.2.2]) ∧ c = [(2, f.2.2), (1, f.1)] := by
  unfold sectorRgx
  simp only [Rx.match_seq (a := .cap 1 _), Rx.match_seq (a := .star _), Rx.match_seq (a := .chr '-') (b := .cap 2 _),
    Rx.match_cap (i := 1), Rx.match_cap (i := 2), ↓match_steps, ↓match_end, Rx.match_chr]
  constructor
  · rintro ⟨x, _, _, _, ⟨_, ⟨hx, rfl⟩, rfl⟩, ⟨_, _, _, _, ⟨⟨mid, hm, rfl⟩, rfl⟩,
      ⟨_, y, _, _, ⟨rfl, rfl⟩, ⟨_, ⟨hy, rfl⟩, rfl⟩, rfl, rfl⟩, rfl, rfl⟩, rfl, rfl⟩
    exact ⟨(x, mid, y), ⟨hx, hm, hy⟩, by simp [dashed_eq], rfl⟩
  · rintro ⟨⟨x, mid, y⟩, ⟨hx, hm, hy⟩, rfl, rfl⟩
    exact ⟨x, _, _, _, ⟨_, ⟨hx, rfl⟩, rfl⟩, ⟨_, _, _, _, ⟨⟨mid, hm, rfl⟩, rfl⟩,
      ⟨_, y, _, _, ⟨rfl, rfl⟩, ⟨_, ⟨hy, rfl⟩, rfl⟩, rfl, rfl⟩, rfl, rfl⟩, by simp [dashed_eq], rfl⟩

theorem end_cardinal {w : Str} (h : EndLike w) {d : Direction} :
    fromCardinalString w = some d ↔ ∃ n, (w, n) ∈ octantNames ∧ d = ⟨n, .VALUE_CARDINAL⟩ := by
  rw [C47_cardinal]
  constructor
  · rintro (h' | ⟨rfl, -⟩ | ⟨h', -⟩ | ⟨h', -⟩ | ⟨h', -⟩)
    · exact h'
    · obtain ⟨a, ha, (h | ⟨b, hb, h⟩)⟩ := h <;> simp at h
    all_goals cases h'
  · exact Or.inl

/-- C59. Sectors in text are the names of two or more octants joined by dashes; the sector decoded
goes from the first to the last one. -/
theorem C59_sector (s : Str) (a b : Direction) :
    fromSectorString s = some (a, b) ↔
      ∃ x n mid y m, (x, n) ∈ octantNames ∧ (y, m) ∈ octantNames ∧ (∀ w ∈ mid, IsOctant w) ∧
        s = dashed x (mid ++ [y]) ∧ a = ⟨n, .VALUE_CARDINAL⟩ ∧ b = ⟨m, .VALUE_CARDINAL⟩ := by
  have key := regexMatch_form match_sector (by
    rintro ⟨x, mid, y⟩ ⟨x', mid', y'⟩ ⟨hx, hm, hy⟩ ⟨hx', hm', hy'⟩ h
    have nodash : ∀ {mid : List Str} {y : Str}, (∀ v ∈ mid, IsOctant v) → EndLike y →
        ∀ w ∈ mid ++ [y], '-' ∉ w := by
      intro mid y hm hy w hw
      rcases List.mem_append.mp hw with hw | hw
      · exact octant_no_dash (hm w hw)
      · exact end_no_dash (List.mem_singleton.mp hw ▸ hy)
    obtain ⟨rfl, h2⟩ := dashed_inj (end_no_dash hx) (end_no_dash hx') (nodash hm hy)
      (nodash hm' hy') h
    obtain ⟨-, h3⟩ := List.append_inj' h2 rfl
    simp at h3
    rw [h3])
  unfold fromSectorString
  constructor
  · intro h
    cases hm : regexMatch sectorRgx s with
    | none => simp [hm] at h
    | some m =>
      obtain ⟨⟨x, mid, y⟩, ⟨hx, hmid, hy⟩, rfl, rfl⟩ := (key s m).mp hm
      simp only [hm] at h
      have e1 : Caps.str [(2, y), (1, x)] 1 = x := rfl
      have e2 : Caps.str [(2, y), (1, x)] 2 = y := rfl
      simp only [e1, e2] at h
      cases h1 : fromCardinalString x with
      | none => simp [h1] at h
      | some d1 =>
        cases h2 : fromCardinalString y with
        | none => simp [h1, h2] at h
        | some d2 =>
          simp only [h1, h2, Option.some.injEq, Prod.mk.injEq] at h
          obtain ⟨rfl, rfl⟩ := h
          obtain ⟨n, hn, rfl⟩ := (end_cardinal hx).mp h1
          obtain ⟨m, hm, rfl⟩ := (end_cardinal hy).mp h2
          exact ⟨x, n, mid, y, m, hn, hm, hmid, rfl, rfl, rfl⟩
  · rintro ⟨x, n, mid, y, m, hn, hm, hmid, rfl, rfl, rfl⟩
    have hx := octant_end ⟨n, hn⟩
    have hy := octant_end ⟨m, hm⟩
    rw [(key _ _).mpr ⟨(x, mid, y), ⟨hx, hmid, hy⟩, rfl, rfl⟩]
    have e1 : Caps.str [(2, y), (1, x)] 1 = x := rfl
    have e2 : Caps.str [(2, y), (1, x)] 2 = y := rfl
    simp only [e1, e2, (end_cardinal hx).mpr ⟨n, hn, rfl⟩, (end_cardinal hy).mpr ⟨m, hm, rfl⟩]

/-- C59. Every such text is decoded. -/
theorem C59_accepts (x y : Str) (mid : List Str) (hx : IsOctant x) (hy : IsOctant y)
    (hm : ∀ w ∈ mid, IsOctant w) : (fromSectorString (dashed x (mid ++ [y]))).isSome = true := by
  obtain ⟨n, hn⟩ := hx
  obtain ⟨m, hm'⟩ := hy
  rw [(C59_sector _ ⟨n, .VALUE_CARDINAL⟩ ⟨m, .VALUE_CARDINAL⟩).mpr
    ⟨x, n, mid, y, m, hn, hm', hm, rfl, rfl, rfl⟩]
  rfl

/-- C59. The octants covered by a sector decoded from text: the enumeration always ends. -/
theorem C59_covered [FloatSem] (s : Str) (a b : Direction) (h : fromSectorString s = some (a, b)) :
    ∃ i j v, i < 8 ∧ j < 8 ∧ a.cardinal = octant i ∧ b.cardinal = octant j ∧
      (∀ fuel, 8 ≤ fuel → sectorCardinalDirToVector fuel a b = some v) ∧
      v.map (·.cardinal) = sweep i j := by
  obtain ⟨x, n, mid, y, m, hn, hm, hmid, rfl, rfl, rfl⟩ := (C59_sector s a b).mp h
  have le : ∀ {w k}, (w, k) ∈ octantNames → k ≤ 360 := by
    intro w k hk
    simp only [octantNames, List.mem_cons, Prod.mk.injEq, List.not_mem_nil, or_false] at hk
    omega
  obtain ⟨i, j, v, hi, hj, h1, h2, h3, h4, -⟩ :=
    C35_sector_partial ⟨n, .VALUE_CARDINAL⟩ ⟨m, .VALUE_CARDINAL⟩ rfl rfl (le hn) (le hm)
  exact ⟨i, j, v, hi, hj, h1, h2, h3, h4⟩

example : fromSectorString c!"NE-E-SE" = some (⟨45, .VALUE_CARDINAL⟩, ⟨135, .VALUE_CARDINAL⟩) ∧
    fromSectorString c!"EW-S" = none ∧ fromSectorString c!"N" = none := by decide +kernel

end Metaf.Props
