import Verif.Model.GroupsC
import Verif.Proofs.RegexText
import Verif.Props.Amounts
import Verif.Props.Values
import Verif.Props.MinMax

/-!
C54: state of runways.
-/

set_option linter.unusedSectionVars false

namespace Metaf.Props

open Metaf.Spec

variable [FloatSem]

/-! ### How the state of a runway is written -/

/-- The way a runway is written. -/
def runwayText (r : Runway) : Str := c!"R" ++ decimal 2 r.rNumber ++ designatorText r.rDesignator

/-- Runway deposits by their code (WMO code table 0919). -/
def depositsCode : List Deposits :=
  [.CLEAR_AND_DRY, .DAMP, .WET_AND_WATER_PATCHES, .RIME_AND_FROST_COVERED, .DRY_SNOW, .WET_SNOW,
   .SLUSH, .ICE, .COMPACTED_OR_ROLLED_SNOW, .FROZEN_RUTS_OR_RIDGES]

/-- Extent of runway contamination by its code (WMO code table 0519). -/
def extentCode : List Extent :=
  [.NONE, .LESS_THAN_10_PERCENT, .FROM_11_TO_25_PERCENT, .RESERVED_3, .RESERVED_4,
   .FROM_26_TO_50_PERCENT, .RESERVED_6, .RESERVED_7, .RESERVED_8, .MORE_THAN_51_PERCENT]

/-- A code of one digit or a slash. -/
def CodeWritten {α : Type} (table : List α) (missing : α) (c : Char) (x : α) : Prop :=
  (c = '/' ∧ x = missing) ∨ ∃ k, table[k]? = some x ∧ c = Nat.digitChar k

/-- Surface friction: coefficient, braking action, unreliable or not reported. -/
def FrictionWritten (s : Str) (x : SurfaceFriction) : Prop :=
  (s = c!"//" ∧ x = ⟨.NOT_REPORTED, 0⟩) ∨ (s = c!"99" ∧ x = ⟨.UNRELIABLE, 0⟩) ∨
  (∃ n, n ≤ 90 ∧ s = decimal 2 n ∧ x = ⟨.SURFACE_FRICTION_REPORTED, n⟩) ∨
  (∃ n c, (n, c) ∈ [(91, 0), (92, 26), (93, 30), (94, 36), (95, 40)] ∧ s = decimal 2 n ∧
    x = ⟨.BRAKING_ACTION_REPORTED, c⟩)

/-- Depth of deposits: runway not operational, depth or not reported. -/
def DepthWritten (s : Str) (p : Precipitation) (tp : RunwayStateType) : Prop :=
  (s = c!"//" ∧ p = ⟨none, .MM⟩ ∧ tp = .RUNWAY_STATE) ∨
  (s = c!"99" ∧ p = ⟨none, .MM⟩ ∧ tp = .RUNWAY_NOT_OPERATIONAL) ∨
  (∃ n, n < 99 ∧ n ≠ 91 ∧ s = decimal 2 n ∧ p = ⟨some (depositDepth n : Nat), .MM⟩ ∧
    tp = .RUNWAY_STATE)

/-- What is written after the runway and the slash, and what it means. -/
inductive StateWritten (r : Runway) : Str → RunwayStateGroup → Prop
  /-- Closed due to snow. -/
  | snoclo : StateWritten r c!"SNOCLO" ⟨r, .RUNWAY_SNOCLO, .NOT_REPORTED, .NOT_REPORTED, ⟨none, .MM⟩, ⟨.NOT_REPORTED, 0⟩⟩
  /-- Deposits have ceased to exist. -/
  | cleared : StateWritten r c!"D" ⟨r, .RUNWAY_CLRD, .NOT_REPORTED, .NOT_REPORTED, ⟨none, .MM⟩, ⟨.NOT_REPORTED, 0⟩⟩
  /-- The same with friction in front of `D`. -/
  | clearedFriction {f x} : FrictionWritten f x → f ≠ c!"//" →
      StateWritten r (f ++ c!"D") ⟨r, .RUNWAY_CLRD, .NOT_REPORTED, .NOT_REPORTED, ⟨none, .MM⟩, x⟩
  /-- The same with friction after `CLRD`. -/
  | clrd {f x} : FrictionWritten f x →
      StateWritten r (c!"CLRD" ++ f) ⟨r, .RUNWAY_CLRD, .NOT_REPORTED, .NOT_REPORTED, ⟨none, .MM⟩, x⟩
  /-- Deposits, extent, depth and friction. -/
  | state {c d e x h p t f y} : CodeWritten depositsCode .NOT_REPORTED c d →
      CodeWritten extentCode .NOT_REPORTED e x → DepthWritten h p t → FrictionWritten f y →
      StateWritten r ([c] ++ [e] ++ h ++ f) ⟨r, t, d, x, p, y⟩

/-! ### Parts -/

theorem codeWritten_digit {α : Type} {table : List α} {missing x : α} {c : Char}
    (ht : table.length ≤ 10) (h : CodeWritten table missing c x) : c = '/' ∨ isDigit c = true := by
  rcases h with ⟨rfl, -⟩ | ⟨k, hk, rfl⟩
  · exact Or.inl rfl
  · have := (List.getElem?_eq_some_iff.mp hk).1
    exact Or.inr (digitChar_isDigit (by omega))

theorem match_digitOrSlash {w : Str} {c : Caps} : RunwayStateGroup.digitOrSlash.Match w c ↔
    ∃ x, (x = '/' ∨ isDigit x = true) ∧ w = [x] ∧ c = [] := by
  have hset : ∀ x : Char, Rx.inSet [('0', '9'), ('/', '/')] x = true ↔ (x = '/' ∨ isDigit x = true) := by
    intro x
    simp only [Rx.inSet, List.any_cons, List.any_nil, Bool.or_false, Bool.or_eq_true, Bool.and_eq_true,
      decide_eq_true_eq, isDigit]
    rw [or_comm]
    refine or_congr_left ⟨fun h => ?_, fun h => by subst h; decide⟩
    exact Char.ext (UInt32.toNat_inj.mp (le_antisymm h.2 h.1))
  simp only [RunwayStateGroup.digitOrSlash, Rx.match_set, hset]

/-- Two digits or two slashes. -/
def TwoOrMissing (s : Str) : Prop := s = c!"//" ∨ ∃ n < 100, s = decimal 2 n

theorem match_two {w : Str} {c : Caps} : RunwayStateGroup.twoRx.Match w c ↔ c = [] ∧ TwoOrMissing w := by
  simp only [RunwayStateGroup.twoRx, Rx.match_alt, Rx.match_digits2, Rx.match_lit, TwoOrMissing]
  constructor
  · rintro (⟨rfl, h⟩ | ⟨rfl, rfl⟩)
    · exact ⟨rfl, Or.inr h⟩
    · exact ⟨rfl, Or.inl rfl⟩
  · rintro ⟨rfl, rfl | h⟩
    · exact Or.inr ⟨rfl, rfl⟩
    · exact Or.inl ⟨rfl, h⟩

theorem two_length {s : Str} (h : TwoOrMissing s) : s.length = 2 := by
  rcases h with rfl | ⟨n, -, rfl⟩
  · rfl
  · exact decimal_length 2 n

theorem match_runway {w : Str} {c : Caps} :
    Rx.Match (.chr 'R' ⬝ .d ⬝ .d ⬝ .opt (.oneOf c!"RCL")) w c ↔
      c = [] ∧ ∃ r : Runway, r.rNumber < 100 ∧ w = runwayText r := by
  simp only [Rx.match_seq, Rx.match_chr, Rx.match_d, Rx.match_opt, Rx.match_oneOf]
  constructor
  · rintro ⟨_, _, _, _, ⟨rfl, rfl⟩, ⟨_, _, _, _, ⟨x, hx, rfl, rfl⟩, ⟨_, _, _, _, ⟨y, hy, rfl, rfl⟩,
      h, rfl, rfl⟩, rfl, rfl⟩, rfl, rfl⟩
    obtain ⟨n, hn, e⟩ := two_digits hx hy
    rcases h with ⟨z, hz, rfl, rfl⟩ | ⟨rfl, rfl⟩
    · simp only [List.mem_cons, List.not_mem_nil, or_false] at hz
      rcases hz with rfl | rfl | rfl
      · exact ⟨rfl, ⟨n, .RIGHT⟩, hn, by simp [runwayText, designatorText, ← e]⟩
      · exact ⟨rfl, ⟨n, .CENTER⟩, hn, by simp [runwayText, designatorText, ← e]⟩
      · exact ⟨rfl, ⟨n, .LEFT⟩, hn, by simp [runwayText, designatorText, ← e]⟩
    · exact ⟨rfl, ⟨n, .NONE⟩, hn, by simp [runwayText, designatorText, ← e]⟩
  · rintro ⟨rfl, ⟨n, d⟩, hn, rfl⟩
    obtain ⟨a, b, ha, hb, h⟩ := decimal_two_digits n
    refine ⟨_, [a] ++ ([b] ++ designatorText d), [], [], ⟨rfl, rfl⟩, ⟨_, _, [], [], ⟨a, ha, rfl, rfl⟩, ⟨_, _, [], [],
      ⟨b, hb, rfl, rfl⟩, ?_, rfl, rfl⟩, rfl, rfl⟩, by simp [runwayText, h], rfl⟩
    cases d
    · exact Or.inr ⟨rfl, rfl⟩
    · exact Or.inl ⟨'L', by decide, rfl, rfl⟩
    · exact Or.inl ⟨'C', by decide, rfl, rfl⟩
    · exact Or.inl ⟨'R', by decide, rfl, rfl⟩

theorem runway_fromString {r : Runway} (h : r.rNumber < 100) :
    Runway.fromString (runwayText r) = some r := by
  rw [C24_runway]
  exact ⟨h, c!"R", Or.inl rfl, rfl⟩

/-- The forms of the text after the runway by shape. -/
inductive StateForm
  | snoclo | cleared
  | clearedFriction (f : Str)
  | clrd (f : Str)
  | state (c e : Char) (h f : Str)

namespace StateForm

def Ok : StateForm → Prop
  | snoclo => True
  | cleared => True
  | clearedFriction f => ∃ n < 100, f = decimal 2 n
  | clrd f => TwoOrMissing f
  | state c e h f => (c = '/' ∨ isDigit c = true) ∧ (e = '/' ∨ isDigit e = true) ∧ TwoOrMissing h ∧
      TwoOrMissing f

def text : StateForm → Str
  | snoclo => c!"SNOCLO"
  | cleared => c!"D"
  | clearedFriction f => f ++ c!"D"
  | clrd f => c!"CLRD" ++ f
  | state c e h f => [c] ++ [e] ++ h ++ f

def caps : StateForm → Caps
  | snoclo => [(2, c!"SNOCLO")]
  | cleared => [(3, c!"D")]
  | clearedFriction f => [(3, f ++ c!"D"), (4, f)]
  | clrd f => [(9, f), (8, c!"CLRD")]
  | state c e h f => [(9, f), (7, h), (6, [e]), (5, [c])]

end StateForm

theorem match_state {w : Str} {c : Caps} :
    Rx.Match (.cap 2 (.lit c!"SNOCLO") ∥ .cap 3 (.opt (.cap 4 (.d ⬝ .d)) ⬝ .chr 'D') ∥
      (((.cap 5 RunwayStateGroup.digitOrSlash ⬝ .cap 6 RunwayStateGroup.digitOrSlash ⬝
        .cap 7 RunwayStateGroup.twoRx) ∥ .cap 8 (.lit c!"CLRD")) ⬝ .cap 9 RunwayStateGroup.twoRx)) w c ↔
      ∃ f : StateForm, f.Ok ∧ w = f.text ∧ c = f.caps := by
  simp only [Rx.match_alt, Rx.match_cap, Rx.match_lit, ↓Rx.match_digits2, Rx.match_opt, Rx.match_seq,
    match_digitOrSlash, match_two, Rx.match_chr]
  constructor
  · rintro (⟨_, ⟨rfl, rfl⟩, rfl⟩ | ⟨_, ⟨_, _, _, _, h, ⟨rfl, rfl⟩, rfl, rfl⟩, rfl⟩ |
      ⟨_, _, _, _, h, ⟨_, ⟨rfl, hf⟩, rfl⟩, rfl, rfl⟩)
    · exact ⟨.snoclo, trivial, rfl, rfl⟩
    · rcases h with ⟨_, ⟨rfl, n, hn, rfl⟩, rfl⟩ | ⟨rfl, rfl⟩
      · exact ⟨.clearedFriction (decimal 2 n), ⟨n, hn, rfl⟩, rfl, rfl⟩
      · exact ⟨.cleared, trivial, rfl, rfl⟩
    · rcases h with ⟨_, _, _, _, ⟨_, ⟨x, hx, rfl, rfl⟩, rfl⟩, ⟨_, _, _, _, ⟨_, ⟨y, hy, rfl, rfl⟩, rfl⟩,
        ⟨_, ⟨rfl, hh⟩, rfl⟩, rfl, rfl⟩, rfl, rfl⟩ | ⟨_, ⟨rfl, rfl⟩, rfl⟩
      · exact ⟨.state x y _ _, ⟨hx, hy, hh, hf⟩, by simp [StateForm.text], rfl⟩
      · exact ⟨.clrd _, hf, rfl, rfl⟩
  · rintro ⟨f, hf, rfl, rfl⟩
    cases f with
    | snoclo => exact Or.inl ⟨_, ⟨rfl, rfl⟩, rfl⟩
    | cleared => exact Or.inr (Or.inl ⟨_, ⟨_, _, _, _, Or.inr ⟨rfl, rfl⟩, ⟨rfl, rfl⟩, rfl, rfl⟩, rfl⟩)
    | clearedFriction f =>
      obtain ⟨n, hn, rfl⟩ := hf
      exact Or.inr (Or.inl ⟨_, ⟨_, _, _, _, Or.inl ⟨_, ⟨rfl, n, hn, rfl⟩, rfl⟩, ⟨rfl, rfl⟩, rfl, rfl⟩, rfl⟩)
    | clrd f =>
      exact Or.inr (Or.inr ⟨_, _, _, _, Or.inr ⟨_, ⟨rfl, rfl⟩, rfl⟩, ⟨_, ⟨rfl, hf⟩, rfl⟩, rfl, rfl⟩)
    | state x y h f =>
      obtain ⟨hx, hy, hh, hf⟩ := hf
      exact Or.inr (Or.inr ⟨[x] ++ ([y] ++ h), f, _, _, Or.inl ⟨_, _, _, _, ⟨_, ⟨x, hx, rfl, rfl⟩, rfl⟩,
        ⟨_, _, _, _, ⟨_, ⟨y, hy, rfl, rfl⟩, rfl⟩, ⟨_, ⟨rfl, hh⟩, rfl⟩, rfl, rfl⟩, rfl, rfl⟩,
        ⟨_, ⟨rfl, hf⟩, rfl⟩, by simp [StateForm.text], rfl⟩)

theorem digitOrSlash_ne {c x : Char} (h : c = '/' ∨ isDigit c = true) (hx : isDigit x = false)
    (hs : x ≠ '/') : c ≠ x := by
  rintro rfl
  rcases h with h | h
  · exact hs h
  · rw [hx] at h; cases h

theorem state_inj {f f' : StateForm} (h : f.Ok) (h' : f'.Ok) (e : f.text = f'.text) :
    f = f' := by
  have hl : f.text.length = f'.text.length := by rw [e]
  have l2 : ∀ {s : Str}, TwoOrMissing s → s.length = 2 := two_length
  have l3 : ∀ {s : Str}, (∃ n < 100, s = decimal 2 n) → s.length = 2 := by
    rintro s ⟨n, -, rfl⟩; exact decimal_length 2 n
  cases f <;> cases f' <;>
    simp only [StateForm.Ok, StateForm.text, List.length_append, List.length_cons, List.length_nil] at h h' hl e ⊢
  case snoclo.cleared => omega
  case snoclo.clearedFriction => have := l3 h'; omega
  case snoclo.clrd => simp at e
  case snoclo.state => simp only [List.cons_append, List.nil_append, List.cons.injEq] at e; exact absurd e.1.symm (digitOrSlash_ne h'.1 rfl (by decide))
  case cleared.snoclo => omega
  case cleared.clearedFriction => have := l3 h'; omega
  case cleared.clrd => omega
  case cleared.state => omega
  case clearedFriction.snoclo => have := l3 h; omega
  case clearedFriction.cleared => have := l3 h; omega
  case clearedFriction.clearedFriction => rw [List.append_cancel_right e]
  case clearedFriction.clrd => have := l3 h; omega
  case clearedFriction.state => have := l3 h; have := l2 h'.2.2.1; have := l2 h'.2.2.2; omega
  case clrd.snoclo => simp at e
  case clrd.cleared => omega
  case clrd.clearedFriction => have := l3 h'; omega
  case clrd.clrd => rw [List.append_cancel_left e]
  case clrd.state => simp only [List.cons_append, List.nil_append, List.cons.injEq] at e; exact absurd e.1.symm (digitOrSlash_ne h'.1 rfl (by decide))
  case state.snoclo => simp only [List.cons_append, List.nil_append, List.cons.injEq] at e; exact absurd e.1 (digitOrSlash_ne h.1 rfl (by decide))
  case state.cleared => omega
  case state.clearedFriction => have := l3 h'; have := l2 h.2.2.1; have := l2 h.2.2.2; omega
  case state.clrd => simp only [List.cons_append, List.nil_append, List.cons.injEq] at e; exact absurd e.1 (digitOrSlash_ne h.1 rfl (by decide))
  case state.state =>
    simp only [List.cons_append, List.nil_append, List.cons.injEq] at e
    obtain ⟨rfl, rfl, e⟩ := e
    have a := l2 h.2.2.1
    have b := l2 h'.2.2.1
    obtain ⟨rfl, rfl⟩ := List.append_inj e (by omega)
    rfl

/-- Forms of a whole text: nothing, or runway and state. -/
inductive RunwayForm
  | empty
  | of (r : Runway) (f : StateForm)

namespace RunwayForm

def Ok : RunwayForm → Prop
  | empty => True
  | of r f => r.rNumber < 100 ∧ f.Ok

def text : RunwayForm → Str
  | empty => []
  | of r f => runwayText r ++ ('/' :: f.text)

def caps : RunwayForm → Caps
  | empty => []
  | of r f => f.caps ++ [(1, runwayText r)]

end RunwayForm

theorem runwayText_inj {r r' : Runway} (h : r.rNumber < 100) (h' : r'.rNumber < 100)
    (e : runwayText r = runwayText r') : r = r' := by
  have := runway_fromString h
  rw [e, runway_fromString h'] at this
  exact (Option.some.inj this).symm

theorem runwayText_noSlash {r : Runway} : '/' ∉ runwayText r := by
  have d : ∀ n, '/' ≠ Nat.digitChar (n % 10) := fun n => (digitChar_mod_ne rfl).symm
  obtain ⟨n, rd⟩ := r
  cases rd <;> simp [runwayText, designatorText, decimal_two, d]

theorem split_slash {a a' b b' : Str} (h : '/' ∉ a) (h' : '/' ∉ a')
    (e : a ++ '/' :: b = a' ++ '/' :: b') : a = a' ∧ b = b' := by
  induction a generalizing a' with
  | nil =>
    cases a' with
    | nil => simpa using e
    | cons x a' => simp at e h'; exact absurd e.1 h'.1
  | cons x a ih =>
    cases a' with
    | nil => simp at e h; exact absurd e.1.symm h.1
    | cons y a' =>
      simp at e h h'
      obtain ⟨rfl, e⟩ := e
      obtain ⟨rfl, rfl⟩ := ih h.2 h'.2 e
      exact ⟨rfl, rfl⟩

theorem match_runwayState (s : Str) (c : Caps) : RunwayStateGroup.rgx.Match s c ↔
    ∃ f : RunwayForm, f.Ok ∧ s = f.text ∧ c = f.caps := by
  rw [RunwayStateGroup.rgx, Rx.match_alt, Rx.match_eps, Rx.match_seq]
  simp only [Rx.match_seq (a := .chr '/'), Rx.match_cap (i := 1), ↓match_runway, ↓match_state, Rx.match_chr]
  constructor
  · rintro (⟨_, _, _, _, ⟨_, ⟨rfl, r, hr, rfl⟩, rfl⟩, ⟨_, _, _, _, ⟨rfl, rfl⟩, ⟨f, hf, rfl, rfl⟩, rfl, rfl⟩,
      rfl, rfl⟩ | ⟨rfl, rfl⟩)
    · exact ⟨.of r f, ⟨hr, hf⟩, by simp [RunwayForm.text], by simp [RunwayForm.caps]⟩
    · exact ⟨.empty, trivial, rfl, rfl⟩
  · rintro ⟨f, hf, rfl, rfl⟩
    cases f with
    | empty => exact Or.inr ⟨rfl, rfl⟩
    | of r f =>
      exact Or.inl ⟨runwayText r, '/' :: f.text, _, f.caps, ⟨_, ⟨rfl, r, hf.1, rfl⟩, rfl⟩,
        ⟨['/'], f.text, [], f.caps, ⟨rfl, rfl⟩, ⟨f, hf.2, rfl, rfl⟩, rfl, by simp⟩, rfl, by
          simp [RunwayForm.caps]⟩

theorem runwayForm_inj (f f' : RunwayForm) (h : f.Ok) (h' : f'.Ok) (e : f.text = f'.text) :
    f.caps = f'.caps := by
  cases f with
  | empty =>
    cases f' with
    | empty => rfl
    | of r f => simp [RunwayForm.text] at e
  | of r f =>
    cases f' with
    | empty => simp [RunwayForm.text] at e
    | of r' f' =>
      obtain ⟨a, b⟩ := split_slash runwayText_noSlash runwayText_noSlash e
      rw [runwayText_inj h.1 h'.1 a, state_inj h.2 h'.2 b]

theorem deposits_iff (c : Char) (d : Deposits) :
    RunwayStateGroup.depositsFromString [c] = some d ↔ CodeWritten depositsCode .NOT_REPORTED c d := by
  unfold CodeWritten
  constructor
  · intro h
    unfold RunwayStateGroup.depositsFromString at h
    simp only [List.length_singleton, bne_self_eq_false, Bool.false_eq_true, reduceIte,
      show ch [c] 0 = c from rfl] at h
    repeat' split at h
    all_goals first
      | cases h; done
      | skip
    all_goals rename_i hc
    all_goals obtain rfl := Option.some.inj h
    all_goals subst hc
    · exact Or.inr ⟨0, rfl, rfl⟩
    · exact Or.inr ⟨1, rfl, rfl⟩
    · exact Or.inr ⟨2, rfl, rfl⟩
    · exact Or.inr ⟨3, rfl, rfl⟩
    · exact Or.inr ⟨4, rfl, rfl⟩
    · exact Or.inr ⟨5, rfl, rfl⟩
    · exact Or.inr ⟨6, rfl, rfl⟩
    · exact Or.inr ⟨7, rfl, rfl⟩
    · exact Or.inr ⟨8, rfl, rfl⟩
    · exact Or.inr ⟨9, rfl, rfl⟩
    · exact Or.inl ⟨rfl, rfl⟩
  · rintro (⟨rfl, rfl⟩ | ⟨k, hk, rfl⟩)
    · rfl
    · have hk9 : k < 10 := by
        have := (List.getElem?_eq_some_iff.mp hk).1
        simpa [depositsCode] using this
      revert hk
      revert d
      revert k
      decide

theorem extent_iff (c : Char) (d : Extent) :
    RunwayStateGroup.extentFromString [c] = some d ↔ CodeWritten extentCode .NOT_REPORTED c d := by
  unfold CodeWritten
  constructor
  · intro h
    unfold RunwayStateGroup.extentFromString at h
    simp only [List.length_singleton, bne_self_eq_false, Bool.false_eq_true, reduceIte,
      show ch [c] 0 = c from rfl] at h
    repeat' split at h
    all_goals first
      | cases h; done
      | skip
    all_goals rename_i hc
    all_goals obtain rfl := Option.some.inj h
    all_goals subst hc
    · exact Or.inr ⟨0, rfl, rfl⟩
    · exact Or.inr ⟨1, rfl, rfl⟩
    · exact Or.inr ⟨2, rfl, rfl⟩
    · exact Or.inr ⟨3, rfl, rfl⟩
    · exact Or.inr ⟨4, rfl, rfl⟩
    · exact Or.inr ⟨5, rfl, rfl⟩
    · exact Or.inr ⟨6, rfl, rfl⟩
    · exact Or.inr ⟨7, rfl, rfl⟩
    · exact Or.inr ⟨8, rfl, rfl⟩
    · exact Or.inr ⟨9, rfl, rfl⟩
    · exact Or.inl ⟨rfl, rfl⟩
  · rintro (⟨rfl, rfl⟩ | ⟨k, hk, rfl⟩)
    · rfl
    · have hk9 : k < 10 := by
        have := (List.getElem?_eq_some_iff.mp hk).1
        simpa [extentCode] using this
      revert hk
      revert d
      revert k
      decide

theorem friction_iff (s : Str) (x : SurfaceFriction) :
    SurfaceFriction.fromString s = some x ↔ FrictionWritten s x := C38_friction s x

theorem friction_two {s : Str} {x : SurfaceFriction} (h : FrictionWritten s x) : TwoOrMissing s := by
  rcases h with ⟨rfl, -⟩ | ⟨rfl, -⟩ | ⟨n, hn, rfl, -⟩ | ⟨n, c, hn, rfl, -⟩
  · exact Or.inl rfl
  · exact Or.inr ⟨99, by decide, rfl⟩
  · exact Or.inr ⟨n, by omega, rfl⟩
  · refine Or.inr ⟨n, ?_, rfl⟩
    simp only [List.mem_cons, Prod.mk.injEq, List.not_mem_nil, or_false] at hn
    omega

theorem decimal_two_ne_slashes (n : Nat) : decimal 2 n ≠ c!"//" := by
  have d : ∀ n, Nat.digitChar (n % 10) ≠ '/' := fun n => digitChar_mod_ne rfl
  simp [decimal_two, d]

theorem depth_two {s : Str} {p : Precipitation} {t : RunwayStateType} (h : DepthWritten s p t) :
    TwoOrMissing s := by
  rcases h with ⟨rfl, -⟩ | ⟨rfl, -⟩ | ⟨n, hn, -, rfl, -⟩
  · exact Or.inl rfl
  · exact Or.inr ⟨99, by decide, rfl⟩
  · exact Or.inr ⟨n, by omega, rfl⟩

theorem depth_iff (s : Str) (p : Precipitation) (t : RunwayStateType) :
    DepthWritten s p t ↔ Precipitation.fromRunwayDeposits s = some p ∧
      t = if s = c!"99" then .RUNWAY_NOT_OPERATIONAL else .RUNWAY_STATE := by
  rw [C37_deposits]
  constructor
  · rintro (⟨rfl, rfl, rfl⟩ | ⟨rfl, rfl, rfl⟩ | ⟨n, hn, h9, rfl, rfl, rfl⟩)
    · exact ⟨Or.inl ⟨rfl, rfl⟩, rfl⟩
    · exact ⟨Or.inr (Or.inl ⟨rfl, rfl⟩), rfl⟩
    · refine ⟨Or.inr (Or.inr ⟨n, hn, h9, rfl, rfl⟩), ?_⟩
      rw [if_neg]
      intro e
      have : decimal 2 n = decimal 2 99 := e
      have := decimal_inj (k := 2) (by omega) (by decide) this
      omega
  · rintro ⟨⟨rfl, rfl⟩ | ⟨rfl, rfl⟩ | ⟨n, hn, h9, rfl, rfl⟩, rfl⟩
    · exact Or.inl ⟨rfl, rfl, rfl⟩
    · exact Or.inr (Or.inl ⟨rfl, rfl, rfl⟩)
    · refine Or.inr (Or.inr ⟨n, hn, h9, rfl, rfl, ?_⟩)
      rw [if_neg]
      intro e
      have : decimal 2 n = decimal 2 99 := e
      have := decimal_inj (k := 2) (by omega) (by decide) this
      omega

/-- What a form means. -/
def StateForm.meaning (r : Runway) : StateForm → Option RunwayStateGroup
  | snoclo => some { tp := .RUNWAY_SNOCLO, rw := r }
  | cleared => some { tp := .RUNWAY_CLRD, rw := r }
  | clearedFriction f => match SurfaceFriction.fromString f with
    | none => none
    | some x => some { tp := .RUNWAY_CLRD, rw := r, sf := x }
  | clrd f => match SurfaceFriction.fromString f with
    | none => none
    | some x => some { tp := .RUNWAY_CLRD, rw := r, sf := x }
  | state c e h f => match SurfaceFriction.fromString f with
    | none => none
    | some x => match RunwayStateGroup.depositsFromString [c] with
      | none => none
      | some d => match RunwayStateGroup.extentFromString [e] with
        | none => none
        | some y => match Precipitation.fromRunwayDeposits h with
          | none => none
          | some p => some { tp := if h = c!"99" then .RUNWAY_NOT_OPERATIONAL else .RUNWAY_STATE,
                             rw := r, dp := d, ext := y, dDepth := p, sf := x }

theorem meaning_iff (r : Runway) (f : StateForm) (g : RunwayStateGroup) (h : f.Ok) :
    f.meaning r = some g → StateWritten r f.text g := by
  intro e
  cases f with
  | snoclo => cases e; exact .snoclo
  | cleared => cases e; exact .cleared
  | clearedFriction f =>
    simp only [StateForm.meaning] at e
    cases hx : SurfaceFriction.fromString f with
    | none => rw [hx] at e; cases e
    | some x =>
      rw [hx] at e
      cases e
      obtain ⟨n, -, rfl⟩ := h
      exact .clearedFriction ((friction_iff _ _).mp hx) (decimal_two_ne_slashes n)
  | clrd f =>
    simp only [StateForm.meaning] at e
    cases hx : SurfaceFriction.fromString f with
    | none => rw [hx] at e; cases e
    | some x =>
      rw [hx] at e
      cases e
      exact .clrd ((friction_iff _ _).mp hx)
  | state c e' h' f =>
    simp only [StateForm.meaning] at e
    cases hx : SurfaceFriction.fromString f with
    | none => rw [hx] at e; cases e
    | some x =>
      cases hd : RunwayStateGroup.depositsFromString [c] with
      | none => rw [hx, hd] at e; cases e
      | some d =>
        cases hy : RunwayStateGroup.extentFromString [e'] with
        | none => rw [hx, hd, hy] at e; cases e
        | some y =>
          cases hp : Precipitation.fromRunwayDeposits h' with
          | none => rw [hx, hd, hy, hp] at e; cases e
          | some p =>
            rw [hx, hd, hy, hp] at e
            cases e
            exact .state ((deposits_iff _ _).mp hd) ((extent_iff _ _).mp hy)
              ((depth_iff _ _ _).mpr ⟨hp, rfl⟩) ((friction_iff _ _).mp hx)

theorem meaning_complete (r : Runway) (s : Str) (g : RunwayStateGroup) (h : StateWritten r s g) :
    ∃ f : StateForm, f.Ok ∧ s = f.text ∧ f.meaning r = some g := by
  cases h with
  | snoclo => exact ⟨.snoclo, trivial, rfl, rfl⟩
  | cleared => exact ⟨.cleared, trivial, rfl, rfl⟩
  | clearedFriction hf hn =>
    refine ⟨.clearedFriction _, (friction_two hf).resolve_left hn, rfl, ?_⟩
    simp only [StateForm.meaning, (friction_iff _ _).mpr hf]
  | clrd hf =>
    refine ⟨.clrd _, friction_two hf, rfl, ?_⟩
    simp only [StateForm.meaning, (friction_iff _ _).mpr hf]
  | @state c d e x h p t f y hd hx hp hf =>
    refine ⟨.state c e h f, ⟨codeWritten_digit (by decide) hd, codeWritten_digit (by decide) hx,
      depth_two hp, friction_two hf⟩, rfl, ?_⟩
    obtain ⟨hq, rfl⟩ := (depth_iff _ _ _).mp hp
    simp only [StateForm.meaning, (friction_iff _ _).mpr hf, (deposits_iff _ _).mpr hd,
      (extent_iff _ _).mpr hx, hq]

theorem parse_of_form (r : Runway) (f : StateForm) (hr : r.rNumber < 100) (hf : f.Ok) :
    RunwayStateGroup.parse (runwayText r ++ '/' :: f.text) .METAR = f.meaning r := by
  have hm := (regexMatch_form match_runwayState runwayForm_inj (runwayText r ++ '/' :: f.text)
    (f.caps ++ [(1, runwayText r)])).mpr ⟨.of r f, ⟨hr, hf⟩, rfl, rfl⟩
  have hS : ¬ (runwayText r ++ '/' :: f.text = c!"SNOCLO" ∨ runwayText r ++ '/' :: f.text = c!"R/SNOCLO") := by
    have d : ∀ n, Nat.digitChar (n % 10) ≠ '/' := fun n => digitChar_mod_ne rfl
    obtain ⟨n, rd⟩ := r
    cases rd <;> simp [runwayText, designatorText, decimal_two, d]
  have h1 : (f.caps ++ [(1, runwayText r)] : Caps).str 1 = runwayText r := by cases f <;> rfl
  rw [RunwayStateGroup.parse, if_neg (by decide), if_neg hS, hm]
  simp only [h1, runway_fromString hr]
  have ne : ∀ {w : Str}, w.length = 2 → w.isEmpty = false := by
    intro w hw
    cases w with
    | nil => simp at hw
    | cons => rfl
  cases f with
  | snoclo => rfl
  | cleared => rfl
  | clearedFriction f =>
    obtain ⟨n, -, rfl⟩ := hf
    have e2 : ((StateForm.clearedFriction (decimal 2 n)).caps ++ [(1, runwayText r)] : Caps).str 2 = [] := rfl
    have e3 : ((StateForm.clearedFriction (decimal 2 n)).caps ++ [(1, runwayText r)] : Caps).str 3 =
      decimal 2 n ++ c!"D" := rfl
    have e4 : ((StateForm.clearedFriction (decimal 2 n)).caps ++ [(1, runwayText r)] : Caps).str 4 =
      decimal 2 n := rfl
    simp only [e2, e3, e4, StateForm.meaning, ne (decimal_length 2 n)]
    simp
    rfl
  | clrd f =>
    have e2 : ((StateForm.clrd f).caps ++ [(1, runwayText r)] : Caps).str 2 = [] := rfl
    have e3 : ((StateForm.clrd f).caps ++ [(1, runwayText r)] : Caps).str 3 = [] := rfl
    have e8 : ((StateForm.clrd f).caps ++ [(1, runwayText r)] : Caps).str 8 = c!"CLRD" := rfl
    have e9 : ((StateForm.clrd f).caps ++ [(1, runwayText r)] : Caps).str 9 = f := rfl
    simp only [e2, e3, e8, e9, StateForm.meaning]
    simp
    rfl
  | state c e h f =>
    have e2 : ((StateForm.state c e h f).caps ++ [(1, runwayText r)] : Caps).str 2 = [] := rfl
    have e3 : ((StateForm.state c e h f).caps ++ [(1, runwayText r)] : Caps).str 3 = [] := rfl
    have e5 : ((StateForm.state c e h f).caps ++ [(1, runwayText r)] : Caps).str 5 = [c] := rfl
    have e6 : ((StateForm.state c e h f).caps ++ [(1, runwayText r)] : Caps).str 6 = [e] := rfl
    have e7 : ((StateForm.state c e h f).caps ++ [(1, runwayText r)] : Caps).str 7 = h := rfl
    have e8 : ((StateForm.state c e h f).caps ++ [(1, runwayText r)] : Caps).str 8 = [] := rfl
    have e9 : ((StateForm.state c e h f).caps ++ [(1, runwayText r)] : Caps).str 9 = f := rfl
    simp only [e2, e3, e5, e6, e7, e8, e9, StateForm.meaning]
    simp
    rfl

/-! ### The property -/

/-- C54: a text in the body of a weather report is recognised as state of runways exactly if it is
`SNOCLO`, `R/SNOCLO`, or a runway, a slash and one of the states, and the group tells what is
written. -/
theorem C54_state (s : Str) (g : RunwayStateGroup) :
    RunwayStateGroup.parse s .METAR = some g ↔
      ((s = c!"SNOCLO" ∨ s = c!"R/SNOCLO") ∧
        g = ⟨⟨88, .NONE⟩, .AERODROME_SNOCLO, .NOT_REPORTED, .NOT_REPORTED, ⟨none, .MM⟩,
          ⟨.NOT_REPORTED, 0⟩⟩) ∨
      ∃ r rest, r.rNumber < 100 ∧ s = runwayText r ++ '/' :: rest ∧ StateWritten r rest g := by
  constructor
  · intro h
    by_cases hs : s = c!"SNOCLO" ∨ s = c!"R/SNOCLO"
    · rw [RunwayStateGroup.parse, if_neg (by decide), if_pos hs] at h
      cases h
      exact Or.inl ⟨hs, rfl⟩
    · right
      cases hm : regexMatch RunwayStateGroup.rgx s with
      | none => rw [RunwayStateGroup.parse, if_neg (by decide), if_neg hs, hm] at h; cases h
      | some m =>
        obtain ⟨f, hf, rfl, rfl⟩ := (regexMatch_form match_runwayState runwayForm_inj s m).mp hm
        cases f with
        | empty =>
          rw [RunwayStateGroup.parse, if_neg (by decide), if_neg hs, hm] at h
          cases h
        | of r f =>
          simp only [RunwayForm.text] at h ⊢
          rw [parse_of_form r f hf.1 hf.2] at h
          exact ⟨r, f.text, hf.1, rfl, meaning_iff r f g hf.2 h⟩
  · rintro (⟨hs, rfl⟩ | ⟨r, rest, hr, rfl, h⟩)
    · rw [RunwayStateGroup.parse, if_neg (by decide), if_pos hs]; rfl
    · obtain ⟨f, hf, rfl, hg⟩ := meaning_complete r rest g h
      rw [parse_of_form r f hr hf, hg]

/-- C54: elsewhere state of runways is not looked for, and it takes no further text. -/
theorem C54_elsewhere (s : Str) (part : ReportPart) (h : part ≠ .METAR) :
    RunwayStateGroup.parse s part = none := by
  simp [RunwayStateGroup.parse, h]

theorem C54_append (s : Str) (g : RunwayStateGroup) : g.append s = (g, .NOT_APPENDED) := rfl

/-- C54: a recognised state of a runway is valid exactly if the runway is valid and the extent is
none of the reserved codes 3, 4, 6, 7 and 8. -/
theorem C54_valid (g : RunwayStateGroup) :
    g.isValid = true ↔ g.rw.isValid = true ∧
      ∀ k, extentCode[k]? = some g.ext → k ≠ 3 ∧ k ≠ 4 ∧ k ≠ 6 ∧ k ≠ 7 ∧ k ≠ 8 := by
  have key : ∀ x : Extent, (x != .RESERVED_3 && x != .RESERVED_4 && x != .RESERVED_6 &&
      x != .RESERVED_7 && x != .RESERVED_8) = true ↔
      ∀ k, extentCode[k]? = some x → k ≠ 3 ∧ k ≠ 4 ∧ k ≠ 6 ∧ k ≠ 7 ∧ k ≠ 8 := by
    intro x
    have fin : (∀ k, extentCode[k]? = some x → k ≠ 3 ∧ k ≠ 4 ∧ k ≠ 6 ∧ k ≠ 7 ∧ k ≠ 8) ↔
        ∀ k, k < 10 → extentCode[k]? = some x → k ≠ 3 ∧ k ≠ 4 ∧ k ≠ 6 ∧ k ≠ 7 ∧ k ≠ 8 := by
      refine ⟨fun h k _ => h k, fun h k hk => h k ?_ hk⟩
      have := (List.getElem?_eq_some_iff.mp hk).1
      simpa [extentCode] using this
    rw [fin]
    cases x <;> decide
  rw [← key]
  simp [RunwayStateGroup.isValid, and_assoc]

example : ∃ g, RunwayStateGroup.parse c!"R24L/451293" .METAR = some g :=
  ⟨_, (C54_state _ _).mpr (Or.inr ⟨⟨24, .LEFT⟩, c!"451293", by decide, rfl,
    .state (c := '4') (e := '5') (h := c!"12") (f := c!"93") (Or.inr ⟨4, rfl, rfl⟩)
      (Or.inr ⟨5, rfl, rfl⟩) (Or.inr (Or.inr ⟨12, by decide, by decide, rfl, rfl, rfl⟩))
      (Or.inr (Or.inr (Or.inr ⟨93, 30, by decide, rfl, rfl⟩)))⟩)⟩
example : (⟨⟨24, .LEFT⟩, .RUNWAY_STATE, .DRY_SNOW, .FROM_26_TO_50_PERCENT, ⟨none, .MM⟩,
    ⟨.NOT_REPORTED, 0⟩⟩ : RunwayStateGroup).isValid = true := by decide

end Metaf.Props

namespace Metaf.Props

attribute [local instance] exactFloat

example : RunwayStateGroup.parse c!"R24L/45129" .METAR = none := by decide +kernel
example : RunwayStateGroup.parse c!"" .METAR = none := by decide +kernel

end Metaf.Props
