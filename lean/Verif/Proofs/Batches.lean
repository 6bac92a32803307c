import Verif.Spec.Performance
import Verif.Model.Performance
import Mathlib.Tactic.Ring

/-! Reading files line by line and in batches. -/

namespace Metaf.Performance

open Metaf Metaf.Spec

theorem getline_some (d : Char) (s text : Str) (h : d ∉ s) : getline d (s ++ d :: text) = some (s, text) := by
  induction s with
  | nil => simp [getline]
  | cons c s ih =>
    rw [List.mem_cons, not_or] at h
    have := ih h.2
    simp only [List.cons_append, getline, this, Ne.symm h.1, if_false]

theorem getline_last (d : Char) (s : Str) (hs : s ≠ []) (h : d ∉ s) : getline d s = some (s, []) := by
  induction s with
  | nil => exact absurd rfl hs
  | cons c s ih =>
    rw [List.mem_cons, not_or] at h
    cases s with
    | nil => simp [getline, Ne.symm h.1]
    | cons b s =>
      rw [getline, if_neg (Ne.symm h.1), ih (by simp) h.2]

theorem lines_exist (text : Str) : ∃ ls, FileLines text ls := by
  induction text with
  | nil => exact ⟨_, .nil⟩
  | cons c text ih =>
    obtain ⟨ls, h⟩ := ih
    by_cases hc : c = '\n'
    · subst hc
      exact ⟨_, .cons (s := []) (by simp) h⟩
    · cases h with
      | nil => exact ⟨_, .last (by simp) (by simpa using Ne.symm hc)⟩
      | last h1 h2 => exact ⟨_, .last (by simp) (by simpa [Ne.symm hc] using h2)⟩
      | @cons s text ls h1 h2 => exact ⟨_, .cons (s := c :: s) (by simpa [Ne.symm hc] using h1) h2⟩

theorem fileLines_unique {text : Str} {ls ls' : List Str} (h : FileLines text ls) (h' : FileLines text ls') : ls = ls' := by
  induction h generalizing ls' with
  | nil =>
    generalize hx : ([] : Str) = text at h'
    cases h' with
    | nil => rfl
    | last h1 => exact absurd hx.symm h1
    | cons h1 h2 =>
      have := congrArg List.length hx
      simp at this
  | @last s h1 h2 =>
    generalize hx : s = text at h'
    cases h' with
    | nil => exact absurd hx h1
    | last => rfl
    | cons h3 h4 =>
      rw [hx] at h2
      simp at h2
  | @cons s text ls h1 h2 ih =>
    generalize hx : s ++ '\n' :: text = t at h'
    cases h' with
    | nil => simp at hx
    | last h3 h4 =>
      rw [← hx] at h4
      simp at h4
    | @cons s' text' ls' h3 h4 =>
      have e1 := getline_some '\n' s text h1
      have e2 := getline_some '\n' s' text' h3
      rw [hx, e2] at e1
      simp only [Option.some.injEq, Prod.mk.injEq] at e1
      rw [e1.1]
      rw [e1.2] at h4
      rw [ih h4]

theorem getline_lines {text : Str} {ls : List Str} (h : FileLines text ls) :
    (ls = [] ∧ text = [] ∧ getline '\n' text = none) ∨
    ∃ s ls' rest, ls = s :: ls' ∧ getline '\n' text = some (s, rest) ∧ FileLines rest ls' ∧
      rest.length < text.length := by
  cases h with
  | nil => exact Or.inl ⟨rfl, rfl, rfl⟩
  | @last _ hs hn =>
    refine Or.inr ⟨_, _, _, rfl, getline_last _ _ hs hn, .nil, ?_⟩
    exact List.length_pos_iff.mpr hs
  | cons hn ht =>
    refine Or.inr ⟨_, _, _, rfl, getline_some _ _ _ hn, ht, ?_⟩
    simp only [List.length_append, List.length_cons]
    omega

theorem fill_lines (n : Nat) {text : Str} {ls : List Str} (h : FileLines text ls) :
    ∃ rest, fill n text = (ls.take n, rest, decide (n ≤ ls.length)) ∧ FileLines rest (ls.drop n) ∧
      rest.length + min n ls.length ≤ text.length := by
  induction n generalizing text ls with
  | zero => exact ⟨text, by simp [fill], by simpa using h, by simp⟩
  | succ n ih =>
    rcases getline_lines h with ⟨rfl, rfl, hg⟩ | ⟨s, ls', rest, rfl, hg, hr, hl⟩
    · refine ⟨[], ?_, by simpa using h, by simp⟩
      simp [fill, hg]
    · obtain ⟨rest', h1, h2, h3⟩ := ih hr
      refine ⟨rest', ?_, by simpa using h2, ?_⟩
      · simp [fill, hg, h1]
      · simp only [List.length_cons]
        omega

theorem seen_file {k : Nat} (hk : 0 < k) (fuel : Nat) {rest : Str} {ls : List Str} (b : List Str)
    (h : FileLines rest ls) (hf : rest.length < fuel) :
    ∃ bs, (Batch.file b rest k).seen fuel = .ok (b :: bs) ∧ bs.flatten = ls.take (k * (ls.length / k)) ∧
      ∀ x ∈ bs, x.length = k := by
  induction fuel generalizing rest ls b with
  | zero => omega
  | succ fuel ih =>
    obtain ⟨rest', h1, h2, h3⟩ := fill_lines k h
    have hn : (Batch.file b rest k).next = (.file (ls.take k) rest' k, decide (k ≤ ls.length)) := by
      simp [Batch.next, h1]
    by_cases hle : k ≤ ls.length
    · obtain ⟨bs, h4, h5, h6⟩ := ih (ls.take k) h2 (by rw [Nat.min_eq_left hle] at h3; omega)
      refine ⟨ls.take k :: bs, ?_, ?_, ?_⟩
      · rw [Batch.seen, hn, if_pos (by simpa using hle), h4]
        rfl
      · rw [List.flatten_cons, h5, List.length_drop]
        have : ls.length / k = (ls.length - k) / k + 1 := by
          rw [← Nat.add_div_right _ hk, Nat.sub_add_cancel hle]
        rw [this, Nat.mul_add, Nat.mul_one, Nat.add_comm, List.take_add]
      · intro x hx
        rcases List.mem_cons.mp hx with rfl | hx
        · simp [hle]
        · exact h6 x hx
    · refine ⟨[], ?_, ?_, by simp⟩
      · rw [Batch.seen, hn, if_neg (by simpa using hle)]
        rfl
      · rw [Nat.div_eq_of_lt (by omega)]
        simp

/-- All batches read from a file. -/
theorem all_file {k : Nat} (hk : 0 < k) {disk : Disk} {path text : Str} {ls : List Str} (hd : disk path = some text)
    (h : FileLines text ls) :
    ∃ src bs, Batch.fromFile disk path k = .ok src ∧ src.all = .ok bs ∧ InBatches k ls bs := by
  obtain ⟨rest, h1, h2, h3⟩ := fill_lines k h
  obtain ⟨bs, h4, h5, h6⟩ := seen_file hk (rest.length + 1) (ls.take k) h2 (Nat.lt_succ_self _)
  refine ⟨.file (ls.take k) rest k, _, ?_, h4, ?_⟩
  · simp [Batch.fromFile, hd, Batch.next, h1]
  · rw [InBatches]
    split
    · rename_i hlt
      rw [List.take_of_length_le (by omega)]
      rw [List.drop_of_length_le (by omega)] at h5
      cases bs with
      | nil => rfl
      | cons x bs =>
        have := h6 x (by simp)
        simp only [List.length_nil, Nat.zero_div, Nat.mul_zero, List.take_zero, List.flatten_cons,
          List.append_eq_nil_iff] at h5
        rw [h5.1, List.length_nil] at this
        omega
    · rename_i hlt
      refine ⟨?_, ?_⟩
      · rw [List.flatten_cons, h5, List.length_drop]
        have : ls.length / k = (ls.length - k) / k + 1 := by
          rw [← Nat.add_div_right _ hk, Nat.sub_add_cancel (by omega)]
        rw [this, Nat.mul_add, Nat.mul_one, Nat.add_comm (k * _), List.take_add]
      · intro x hx
        rcases List.mem_cons.mp hx with rfl | hx
        · simp only [List.length_take]
          omega
        · exact h6 x hx

theorem flatten_inBatches {k : Nat} {ls : List Str} {bs : List (List Str)} (h : InBatches k ls bs) :
    bs.flatten = inFullBatches k ls := by
  rw [InBatches] at h
  rw [inFullBatches]
  split at h
  · rename_i hlt
    rw [h, if_pos hlt]
    simp
  · rename_i hlt
    rw [h.1, if_neg hlt]

theorem flatten_length {k : Nat} {bs : List (List Str)} (h : ∀ b ∈ bs, b.length = k) :
    bs.flatten.length = k * bs.length := by
  induction bs with
  | nil => rfl
  | cons b bs ih =>
    rw [List.flatten_cons, List.length_append, ih fun x hx => h x (by simp [hx]), h b (by simp), List.length_cons]
    ring

theorem length_inBatches {k : Nat} (hk : 0 < k) {ls : List Str} {bs : List (List Str)} (h : InBatches k ls bs) :
    bs.length = max 1 (ls.length / k) := by
  rw [InBatches] at h
  split at h
  · rename_i hlt
    rw [h, Nat.div_eq_of_lt hlt]
    rfl
  · rename_i hlt
    have h1 := flatten_length h.2
    rw [h.1, List.length_take, Nat.min_eq_left (Nat.mul_div_le _ _)] at h1
    have h2 := Nat.eq_of_mul_eq_mul_left hk h1
    have h3 : 0 < ls.length / k := Nat.div_pos (by omega) hk
    omega

theorem unique_inBatches {k : Nat} {ls : List Str} {bs bs' : List (List Str)} (hk : 0 < k) (h : InBatches k ls bs)
    (h' : InBatches k ls bs') : bs = bs' := by
  rw [InBatches] at h h'
  split at h
  · rename_i hlt
    rw [if_pos hlt] at h'
    rw [h, h']
  · rename_i hlt
    rw [if_neg hlt] at h'
    have := h.1.trans h'.1.symm
    have h1 := h.2
    have h2 := h'.2
    clear h h'
    induction bs generalizing bs' with
    | nil =>
      cases bs' with
      | nil => rfl
      | cons b bs' =>
        have hb := h2 b (by simp)
        simp only [List.flatten_nil, List.flatten_cons] at this
        have : b = [] := (List.append_eq_nil_iff.mp this.symm).1
        rw [this, List.length_nil] at hb
        omega
    | cons b bs ih =>
      cases bs' with
      | nil =>
        have hb := h1 b (by simp)
        simp only [List.flatten_nil, List.flatten_cons] at this
        have : b = [] := (List.append_eq_nil_iff.mp this).1
        rw [this, List.length_nil] at hb
        omega
      | cons b' bs' =>
        rw [List.flatten_cons, List.flatten_cons] at this
        have hb := List.append_inj this (by rw [h1 b (by simp), h2 b' (by simp)])
        rw [hb.1, ih hb.2 (fun x hx => h1 x (by simp [hx])) (fun x hx => h2 x (by simp [hx]))]

theorem all_testdata (b : List Str) (n : Nat) :
    (Batch.testdata b n).all = .ok (List.replicate (max n 1) b) := by
  have : ∀ fuel n, n < fuel → (Batch.testdata b n).seen fuel = .ok (List.replicate (max n 1) b) := by
    intro fuel
    induction fuel with
    | zero => intro n h; omega
    | succ fuel ih =>
      intro n h
      rw [Batch.seen]
      by_cases hn : n - 1 = 0
      · have : max n 1 = 1 := by omega
        simp [Batch.next, hn, this, Batch.current]
      · have hm : max n 1 = max (n - 1) 1 + 1 := by omega
        have := ih (n - 1) (by omega)
        have hx : (Batch.testdata b n).next = (.testdata b (n - 1), true) := by
          simp [Batch.next, hn]
        rw [hx, if_pos rfl, this, hm, List.replicate_succ]
        rfl
  exact this _ _ (Nat.lt_succ_self _)

theorem all_memory (b : List Str) : (Batch.memory b).all = .ok [b] := rfl

theorem fileLines_fileOf {ls : List Str} (h : ∀ s ∈ ls, '\n' ∉ s) : FileLines (fileOf ls) ls := by
  induction ls with
  | nil => exact .nil
  | cons s ls ih =>
    have := FileLines.cons (h s (by simp)) (ih fun t ht => h t (by simp [ht]))
    simpa [fileOf] using this

end Metaf.Performance
