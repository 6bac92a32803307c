import Verif.Proofs.Regex

/-!
The order in which the backtracking matcher tries matches.
-/

namespace Metaf

open Rx

theorem run_seq_assoc (a b c : Rx) (s : Str) : run (a ⬝ (b ⬝ c)) s = run ((a ⬝ b) ⬝ c) s := by
  simp only [run, List.flatMap_assoc, List.map_flatMap, List.flatMap_map, List.map_map]
  congr 1
  funext x
  congr 1
  funext y
  congr 1
  funext z
  simp [List.append_assoc]

theorem regexMatch_seq_assoc (a b c : Rx) (s : Str) :
    regexMatch (a ⬝ (b ⬝ c)) s = regexMatch ((a ⬝ b) ⬝ c) s := by
  simp only [regexMatch, run_seq_assoc]

theorem findSome?_all_eq {α β : Type} (f : α → Option β) (l : List α) (y : α) (hy : y ∈ l)
    (h : ∀ x ∈ l, (f x).isSome → x = y) : l.findSome? f = f y := by
  induction l with
  | nil => cases hy
  | cons x l ih =>
    rw [List.findSome?_cons]
    cases hx : f x with
    | some b =>
      have := h x (by simp) (by simp [hx])
      rw [← this, hx]
    | none =>
      rcases List.mem_cons.mp hy with rfl | hy'
      · simp only [hx]
        cases hr : l.findSome? f with
        | none => rfl
        | some b =>
          obtain ⟨l1, z, l2, hl, hz, _⟩ := List.findSome?_eq_some_iff.mp hr
          have := h z (by simp [hl]) (by simp [hz])
          rw [this, hx] at hz
          cases hz
      · exact ih hy' fun z hz => h z (List.mem_cons_of_mem _ hz)

/-- When the first part of a sequence can match in only one way, the second part decides. -/
theorem regexMatch_seq {a b : Rx} {w t : Str} {ca : Caps} (ha : Match a w ca)
    (hu : ∀ w' t' ca' cb', Match a w' ca' → Match b t' cb' → w ++ t = w' ++ t' →
      w' = w ∧ t' = t ∧ ca' = ca) :
    regexMatch (a ⬝ b) (w ++ t) = (regexMatch b t).map (· ++ ca) := by
  have hmem : (ca, w, t) ∈ run a (w ++ t) := (mem_run _ _ _ _ _).mpr ⟨rfl, ha⟩
  simp only [regexMatch, run, List.find?_flatMap]
  rw [findSome?_all_eq _ _ _ hmem]
  · simp only [List.find?_map]
    have : ((fun m : Caps × Str × Str => m.2.2.isEmpty) ∘
        fun x : Caps × Str × Str => (x.1 ++ ca, w ++ x.2.1, x.2.2)) = fun m => m.2.2.isEmpty := rfl
    rw [this]
    cases (b.run t).find? fun m => m.2.2.isEmpty <;> rfl
  · rintro ⟨ca', w', t'⟩ hm hs
    obtain ⟨e, hma⟩ := (mem_run _ _ _ _ _).mp hm
    rw [List.find?_isSome] at hs
    obtain ⟨x, hx, hp⟩ := hs
    obtain ⟨⟨cb, wb, rb⟩, hb, rfl⟩ := List.mem_map.mp hx
    have hp : rb = [] := by simpa using hp
    subst hp
    obtain ⟨e2, hmb⟩ := (mem_run _ _ _ _ _).mp hb
    rw [List.append_nil] at e2
    subst e2
    obtain ⟨rfl, rfl, rfl⟩ := hu _ _ _ _ hma hmb e
    rfl

end Metaf
