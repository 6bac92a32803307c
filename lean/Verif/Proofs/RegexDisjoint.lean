import Verif.Proofs.Regex

/-!
A procedure that shows two regular expressions to have no text in common.
-/

namespace Metaf

namespace Rx

/-- The text is matched by the expression. -/
def Lang (r : Rx) (s : Str) : Prop := ∃ c, Match r s c

theorem lang_eps {s : Str} : Lang .eps s ↔ s = [] := by simp [Lang, match_eps]

theorem lang_set {rs : List (Char × Char)} {s : Str} :
    Lang (.set rs) s ↔ ∃ c, inSet rs c = true ∧ s = [c] := by
  simp only [Lang, match_set]
  constructor
  · rintro ⟨_, x, h, rfl, _⟩; exact ⟨x, h, rfl⟩
  · rintro ⟨x, h, rfl⟩; exact ⟨[], x, h, rfl, rfl⟩

theorem lang_alt {a b : Rx} {s : Str} : Lang (.alt a b) s ↔ Lang a s ∨ Lang b s := by
  simp only [Lang, match_alt, exists_or]

theorem lang_seq {a b : Rx} {s : Str} :
    Lang (.seq a b) s ↔ ∃ u v, Lang a u ∧ Lang b v ∧ s = u ++ v := by
  simp only [Lang, match_seq]
  constructor
  · rintro ⟨_, u, v, ca, cb, h1, h2, rfl, _⟩; exact ⟨u, v, ⟨_, h1⟩, ⟨_, h2⟩, rfl⟩
  · rintro ⟨u, v, ⟨ca, h1⟩, ⟨cb, h2⟩, rfl⟩; exact ⟨_, u, v, ca, cb, h1, h2, rfl, rfl⟩

theorem lang_cap {i : Nat} {a : Rx} {s : Str} : Lang (.cap i a) s ↔ Lang a s := by
  simp only [Lang, match_cap]
  constructor
  · rintro ⟨_, ca, h, _⟩; exact ⟨ca, h⟩
  · rintro ⟨ca, h⟩; exact ⟨_, ca, h, rfl⟩

theorem lang_star_nil {a : Rx} : Lang (.star a) [] := ⟨[], .starNil⟩

theorem lang_star_cons {a : Rx} {u v : Str} (h1 : Lang a u) (h2 : Lang (.star a) v) :
    Lang (.star a) (u ++ v) := by
  by_cases hu : u = []
  · simpa [hu] using h2
  · obtain ⟨ca, h1⟩ := h1
    obtain ⟨cb, h2⟩ := h2
    exact ⟨_, match_star.mpr (Or.inr ⟨u, v, ca, cb, hu, h1, h2, rfl, rfl⟩)⟩

theorem lang_opt {a : Rx} {s : Str} : Lang (.opt a) s ↔ Lang a s ∨ s = [] := by
  rw [opt, lang_alt, lang_eps]

theorem lang_chr {c : Char} {s : Str} : Lang (.chr c) s ↔ s = [c] := by
  rw [chr, lang_set]
  simp only [inSet, List.any_cons, List.any_nil, Bool.or_false, Bool.and_eq_true, decide_eq_true_eq]
  constructor
  · rintro ⟨x, ⟨h1, h2⟩, rfl⟩
    have : x = c := Char.toNat_inj.mp (by omega)
    rw [this]
  · rintro rfl; exact ⟨c, ⟨Nat.le_refl _, Nat.le_refl _⟩, rfl⟩

theorem lang_lit : ∀ (w : Str) {s : Str}, Lang (.lit w) s ↔ s = w
  | [], s => by rw [lit, lang_eps]
  | [c], s => by rw [lit, lang_chr]
  | c :: d :: w, s => by
    simp only [lit, lang_seq, lang_chr, lang_lit (d :: w)]
    constructor
    · rintro ⟨u, v, rfl, rfl, rfl⟩; rfl
    · rintro rfl; exact ⟨_, _, rfl, rfl, rfl⟩

/-- One of several texts. -/
def lits : List Str → Rx
  | [] => .set []
  | w :: ws => .alt (.lit w) (lits ws)

theorem lang_lits : ∀ (ws : List Str) {s : Str}, Lang (.lits ws) s ↔ s ∈ ws
  | [], s => by simp [lits, lang_set, inSet]
  | w :: ws, s => by simp only [lits, lang_alt, lang_lit, lang_lits ws, List.mem_cons]

/-- Any character. -/
def any : Rx := .set [(Char.ofNat 0, Char.ofNat 0x10FFFF)]

theorem inSet_any (c : Char) : inSet [(Char.ofNat 0, Char.ofNat 0x10FFFF)] c = true := by
  have h1 : (Char.ofNat 0).toNat = 0 := by decide
  have h2 : (Char.ofNat 0x10FFFF).toNat = 0x10FFFF := by decide
  simp only [inSet, List.any_cons, List.any_nil, Bool.or_false, Bool.and_eq_true,
    decide_eq_true_eq, h1, h2]
  refine ⟨Nat.zero_le _, ?_⟩
  have := c.valid
  simp only [UInt32.isValidChar, Nat.isValidChar] at this
  have e : c.toNat = c.val.toNat := rfl
  omega

theorem lang_any {c : Char} : Lang .any [c] := lang_set.mpr ⟨c, inSet_any c, rfl⟩

theorem lang_all : ∀ s : Str, Lang (.star .any) s
  | [] => lang_star_nil
  | c :: s => lang_star_cons (u := [c]) lang_any (lang_all s)

theorem lang_of_regexMatch {r : Rx} {s : Str} {m : Caps} (h : regexMatch r s = some m) :
    Lang r s := ⟨m, regexMatch_sound h⟩

/-! ### Derivatives -/

/-- The expression matches the empty text. -/
def null : Rx → Bool
  | .eps => true
  | .set _ => false
  | .seq a b => null a && null b
  | .alt a b => null a || null b
  | .star _ => true
  | .cap _ a => null a

/-- Sequence without trivial first member. -/
def glue : Rx → Rx → Rx
  | .eps, b => b
  | a, b => .seq a b

/-- The possible first characters with the expression for the rest. -/
def lf : Rx → List (List (Char × Char) × Rx)
  | .eps => []
  | .set rs => [(rs, .eps)]
  | .seq a b => (lf a).map (fun p => (p.1, glue p.2 b)) ++ (if null a then lf b else [])
  | .alt a b => lf a ++ lf b
  | .star a => (lf a).map (fun p => (p.1, glue p.2 (.star a)))
  | .cap _ a => lf a

theorem lang_glue {a b : Rx} {u v : Str} (h1 : Lang a u) (h2 : Lang b v) :
    Lang (glue a b) (u ++ v) := by
  cases a with
  | eps => rw [lang_eps] at h1; subst h1; exact h2
  | _ => exact lang_seq.mpr ⟨u, v, h1, h2, rfl⟩

theorem null_of_match {r : Rx} {s : Str} {c : Caps} (h : Match r s c) : s = [] → null r = true := by
  induction h with
  | eps => intro _; rfl
  | set => intro h; cases h
  | seq _ _ ih1 ih2 =>
    intro h
    obtain ⟨h1, h2⟩ := List.append_eq_nil_iff.mp h
    simp [null, ih1 h1, ih2 h2]
  | altl _ ih => intro h; simp [null, ih h]
  | altr _ ih => intro h; simp [null, ih h]
  | starNil => intro _; rfl
  | starCons => intro _; rfl
  | cap _ ih => intro h; exact ih h

theorem lf_of_match {r : Rx} {w : Str} {cs : Caps} (h : Match r w cs) :
    ∀ {c : Char} {s : Str}, w = c :: s → ∃ p ∈ lf r, inSet p.1 c = true ∧ Lang p.2 s := by
  induction h with
  | eps => intro c s h; cases h
  | set hc =>
    intro c s h
    simp only [List.cons.injEq] at h
    obtain ⟨rfl, rfl⟩ := h
    exact ⟨_, List.mem_singleton.mpr rfl, hc, lang_eps.mpr rfl⟩
  | @seq a b u v ca cb h1 h2 ih1 ih2 =>
    intro c s h
    cases u with
    | nil =>
      obtain ⟨p, hp, hc, hl⟩ := ih2 (by simpa using h)
      have hn : null a = true := null_of_match h1 rfl
      exact ⟨p, by simp [lf, hn, hp], hc, hl⟩
    | cons x u =>
      simp only [List.cons_append, List.cons.injEq] at h
      obtain ⟨rfl, rfl⟩ := h
      obtain ⟨p, hp, hc, hl⟩ := ih1 rfl
      refine ⟨(p.1, glue p.2 b), ?_, hc, lang_glue hl ⟨_, h2⟩⟩
      simp only [lf, List.mem_append, List.mem_map]
      exact Or.inl ⟨p, hp, rfl⟩
  | altl _ ih =>
    intro c s h
    obtain ⟨p, hp, h⟩ := ih h
    exact ⟨p, by simp [lf, hp], h⟩
  | altr _ ih =>
    intro c s h
    obtain ⟨p, hp, h⟩ := ih h
    exact ⟨p, by simp [lf, hp], h⟩
  | starNil => intro c s h; cases h
  | @starCons a u v ca cb hne h1 h2 ih1 ih2 =>
    intro c s h
    cases u with
    | nil => exact absurd rfl hne
    | cons x u =>
      simp only [List.cons_append, List.cons.injEq] at h
      obtain ⟨rfl, rfl⟩ := h
      obtain ⟨p, hp, hc, hl⟩ := ih1 rfl
      refine ⟨(p.1, glue p.2 (.star a)), ?_, hc, lang_glue hl ⟨_, h2⟩⟩
      simp only [lf, List.mem_map]
      exact ⟨p, hp, rfl⟩
  | cap _ ih => intro c s h; exact ih h

/-- Two character sets have a character in common. -/
def overlap (a b : List (Char × Char)) : Bool :=
  a.any fun r => b.any fun q => Nat.ble r.1.toNat q.2.toNat && Nat.ble q.1.toNat r.2.toNat

theorem overlap_of {a b : List (Char × Char)} {c : Char} (h1 : inSet a c = true)
    (h2 : inSet b c = true) : overlap a b = true := by
  simp only [inSet, List.any_eq_true, Bool.and_eq_true, decide_eq_true_eq] at h1 h2
  obtain ⟨r, hr, h1, h1'⟩ := h1
  obtain ⟨q, hq, h2, h2'⟩ := h2
  simp only [overlap, List.any_eq_true, Bool.and_eq_true, Nat.ble_eq]
  exact ⟨r, hr, q, hq, by omega, by omega⟩

/-- The expressions have no text in common; the search goes `n` characters deep. -/
def apart : Nat → Rx → Rx → Bool
  | 0, _, _ => false
  | n + 1, a, b =>
    !(null a && null b) &&
      (lf a).all fun p => (lf b).all fun q => !overlap p.1 q.1 || apart n p.2 q.2

theorem apart_sound : ∀ (n : Nat) (a b : Rx), apart n a b = true →
    ∀ s, Lang a s → Lang b s → False := by
  intro n
  induction n with
  | zero => intro a b h; cases h
  | succ n ih =>
    intro a b h s ⟨c1, h1⟩ ⟨c2, h2⟩
    simp only [apart, Bool.and_eq_true, List.all_eq_true] at h
    cases s with
    | nil => simp [null_of_match h1 rfl, null_of_match h2 rfl] at h
    | cons c s =>
      obtain ⟨p, hp, hpc, hps⟩ := lf_of_match h1 rfl
      obtain ⟨q, hq, hqc, hqs⟩ := lf_of_match h2 rfl
      have := h.2 p hp q hq
      rw [overlap_of hpc hqc] at this
      exact ih _ _ (by simpa using this) s hps hqs

end Rx

end Metaf
