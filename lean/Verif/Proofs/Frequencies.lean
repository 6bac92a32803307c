import Verif.Model.Performance

/-! Maps with strings as keys, and how often texts occur. -/

namespace Metaf.Performance

open Metaf

theorem strLt_irrefl (s : Str) : strLt s s = false := by
  induction s with
  | nil => rfl
  | cons a s ih => simp [strLt, ih]

theorem strLt_trans {s t u : Str} (h1 : strLt s t = true) (h2 : strLt t u = true) : strLt s u = true := by
  induction s generalizing t u with
  | nil =>
    cases u with
    | nil => cases t <;> simp [strLt] at h2
    | cons => rfl
  | cons a s ih =>
    cases t with
    | nil => simp [strLt] at h1
    | cons b t =>
      cases u with
      | nil => simp [strLt] at h2
      | cons c u =>
        simp only [strLt, Bool.or_eq_true, decide_eq_true_eq, Bool.and_eq_true, beq_iff_eq] at h1 h2 ⊢
        rcases h1 with h1 | ⟨h1, h1'⟩ <;> rcases h2 with h2 | ⟨h2, h2'⟩
        · exact Or.inl (by omega)
        · exact Or.inl (by omega)
        · exact Or.inl (by omega)
        · exact Or.inr ⟨by omega, ih h1' h2'⟩

theorem strLt_total {s t : Str} (h1 : strLt s t = false) (h2 : strLt t s = false) : s = t := by
  induction s generalizing t with
  | nil =>
    cases t with
    | nil => rfl
    | cons => simp [strLt] at h1
  | cons a s ih =>
    cases t with
    | nil => simp [strLt] at h2
    | cons b t =>
      simp only [strLt, Bool.or_eq_false_iff, decide_eq_false_iff_not, Bool.and_eq_false_iff, beq_eq_false_iff_ne] at h1 h2
      have hab : a.toNat = b.toNat := by omega
      have : a = b := Char.ext (UInt32.toNat_inj.mp hab)
      subst this
      rw [ih (h1.2.resolve_left (by simp)) (h2.2.resolve_left (by simp))]

/-- The keys are in order. -/
def Sorted {V : Type} (m : Map V) : Prop := m.Pairwise fun a b => strLt a.1 b.1 = true

theorem update_keys {V : Type} {init : V} {f : V → V} {key : Str} {m : Map V} {e : Str × V}
    (h : e ∈ Map.update init f key m) : e.1 = key ∨ ∃ v, (e.1, v) ∈ m := by
  induction m with
  | nil =>
    simp only [Map.update, List.mem_singleton] at h
    exact Or.inl (by rw [h])
  | cons x m ih =>
    obtain ⟨k, v⟩ := x
    rw [Map.update] at h
    split at h
    · rcases List.mem_cons.mp h with rfl | h
      · exact Or.inl rfl
      · exact Or.inr ⟨e.2, h⟩
    · split at h
      · rcases List.mem_cons.mp h with rfl | h
        · exact Or.inr ⟨v, by simp⟩
        · exact (ih h).imp id fun ⟨v', hv⟩ => ⟨v', by simp [hv]⟩
      · rcases List.mem_cons.mp h with rfl | h
        · exact Or.inr ⟨v, by simp⟩
        · exact Or.inr ⟨e.2, by simp [h]⟩

theorem update_sorted {V : Type} (init : V) (f : V → V) (key : Str) {m : Map V} (h : Sorted m) :
    Sorted (Map.update init f key m) := by
  induction m with
  | nil => simp [Map.update, Sorted]
  | cons x m ih =>
    obtain ⟨k, v⟩ := x
    have hx := List.pairwise_cons.mp h
    rw [Map.update]
    split
    · rename_i hk
      refine List.pairwise_cons.mpr ⟨?_, h⟩
      intro e he
      rcases List.mem_cons.mp he with rfl | he
      · exact hk
      · exact strLt_trans hk (hx.1 e he)
    · split
      · rename_i hk
        refine List.pairwise_cons.mpr ⟨?_, ih hx.2⟩
        intro e he
        rcases update_keys he with h1 | ⟨v', h1⟩
        · rw [h1]; exact hk
        · exact hx.1 (e.1, v') h1
      · exact List.pairwise_cons.mpr ⟨hx.1, hx.2⟩

theorem get?_cons {V : Type} (key k : Str) (v : V) (m : Map V) :
    Map.get? key ((k, v) :: m) = if k = key then some v else Map.get? key m := by
  by_cases h : k = key
  · simp [Map.get?, h]
  · simp [Map.get?, h]

theorem get?_below {V : Type} {key : Str} {m : Map V} (h : ∀ e ∈ m, strLt key e.1 = true) : Map.get? key m = none := by
  induction m with
  | nil => rfl
  | cons x m ih =>
    obtain ⟨k, v⟩ := x
    have : k ≠ key := by
      rintro rfl
      have := h (k, v) (by simp)
      rw [strLt_irrefl] at this
      cases this
    rw [get?_cons, if_neg this, ih fun e he => h e (by simp [he])]

theorem get?_update {V : Type} (init : V) (f : V → V) (key k : Str) {m : Map V} (h : Sorted m) :
    Map.get? k (Map.update init f key m) =
      if k = key then some (f ((Map.get? key m).getD init)) else Map.get? k m := by
  induction m with
  | nil =>
    rw [Map.update, get?_cons]
    by_cases hk : k = key
    · subst hk; rw [if_pos rfl, if_pos rfl]; rfl
    · rw [if_neg (Ne.symm hk), if_neg hk]
  | cons x m ih =>
    obtain ⟨k', v⟩ := x
    have hx := List.pairwise_cons.mp h
    rw [Map.update]
    split
    · rename_i hk
      have hn : Map.get? key ((k', v) :: m) = none := by
        apply get?_below
        intro e he
        rcases List.mem_cons.mp he with rfl | he
        · exact hk
        · exact strLt_trans hk (hx.1 e he)
      rw [hn, get?_cons]
      by_cases hkk : k = key
      · subst hkk; rw [if_pos rfl, if_pos rfl]; rfl
      · rw [if_neg (Ne.symm hkk), if_neg hkk]
    · rename_i hk1
      split
      · rename_i hk
        have hne : k' ≠ key := by rintro rfl; rw [strLt_irrefl] at hk; cases hk
        rw [get?_cons, get?_cons, get?_cons, ih hx.2, if_neg hne]
        by_cases hkk : k' = k
        · subst hkk; rw [if_pos rfl, if_neg hne, if_pos rfl]
        · rw [if_neg hkk, if_neg hkk]
      · rename_i hk2
        have heq : key = k' := strLt_total (by simpa using hk1) (by simpa using hk2)
        subst heq
        rw [get?_cons, get?_cons, get?_cons]
        by_cases hkk : k = key
        · subst hkk; rw [if_pos rfl, if_pos rfl, if_pos rfl]; rfl
        · rw [if_neg (Ne.symm hkk), if_neg hkk, if_neg (Ne.symm hkk)]

theorem mem_iff_get? {V : Type} {m : Map V} (h : Sorted m) (k : Str) (v : V) : (k, v) ∈ m ↔ Map.get? k m = some v := by
  induction m with
  | nil => simp [Map.get?]
  | cons x m ih =>
    obtain ⟨k', v'⟩ := x
    have hx := List.pairwise_cons.mp h
    rw [get?_cons, List.mem_cons]
    by_cases hk : k' = k
    · subst hk
      rw [if_pos rfl]
      constructor
      · rintro (h1 | h1)
        · cases h1; rfl
        · have := hx.1 _ h1
          rw [strLt_irrefl] at this
          cases this
      · intro h1; cases h1; exact Or.inl rfl
    · rw [if_neg hk, ← ih hx.2]
      constructor
      · rintro (h1 | h1)
        · cases h1; exact absurd rfl hk
        · exact h1
      · exact Or.inr

theorem sorted_nodup {V : Type} {m : Map V} (h : Sorted m) : (m.map Prod.fst).Nodup := by
  rw [List.nodup_iff_pairwise_ne, List.pairwise_map]
  refine h.imp ?_
  intro a b hab heq
  rw [heq, strLt_irrefl] at hab
  cases hab

/-! ### How often texts occur -/

theorem frequency_add {m : Map Nat} (hm : Sorted m) (l : List Str) :
    Sorted (l.foldl Frequency.add m) ∧
      ∀ s, (Map.get? s (l.foldl Frequency.add m)).getD 0 = (Map.get? s m).getD 0 + l.count s := by
  induction l generalizing m with
  | nil => exact ⟨hm, by simp⟩
  | cons a l ih =>
    have h1 : Sorted (Frequency.add m a) := update_sorted _ _ _ hm
    obtain ⟨h2, h3⟩ := ih h1
    refine ⟨h2, ?_⟩
    intro s
    rw [List.foldl_cons, h3, Frequency.add, get?_update _ _ _ _ hm, List.count_cons]
    by_cases hs : s = a
    · subst hs
      simp
      omega
    · simp [hs, Ne.symm hs]

theorem frequency_pos {m : Map Nat} (hm : Sorted m) (hp : ∀ e ∈ m, 0 < e.2) (l : List Str) :
    ∀ e ∈ l.foldl Frequency.add m, 0 < e.2 := by
  induction l generalizing m with
  | nil => exact hp
  | cons a l ih =>
    refine ih (update_sorted _ _ _ hm) ?_
    rintro ⟨k, v⟩ he
    rw [Frequency.add, mem_iff_get? (update_sorted _ _ _ hm), get?_update _ _ _ _ hm] at he
    split at he
    · cases he; simp
    · exact hp _ ((mem_iff_get? hm _ _).mpr he)

theorem foldl_flatten (bs : List (List Str)) (m : Map Nat) :
    bs.foldl (fun m b => b.foldl Frequency.add m) m = bs.flatten.foldl Frequency.add m := by
  induction bs generalizing m with
  | nil => rfl
  | cons b bs ih => rw [List.foldl_cons, ih, List.flatten_cons, List.foldl_append]

/-! ### The order of the lines -/

theorem multimapInsert_perm (e : Nat × Str) (l : List (Nat × Str)) : (multimapInsert e l).Perm (e :: l) := by
  induction l with
  | nil => exact List.Perm.refl _
  | cons x l ih =>
    rw [multimapInsert]
    split
    · exact List.Perm.refl _
    · exact (ih.cons x).trans (List.Perm.swap _ _ _)

/-- By number, then by text. -/
def Below (a b : Nat × Str) : Prop := a.1 < b.1 ∨ a.1 = b.1 ∧ strLt a.2 b.2 = true

theorem multimapInsert_sorted (e : Nat × Str) {l : List (Nat × Str)} (h : l.Pairwise Below)
    (hn : ∀ x ∈ l, strLt x.2 e.2 = true) : (multimapInsert e l).Pairwise Below := by
  induction l with
  | nil => simp [multimapInsert]
  | cons x l ih =>
    have hx := List.pairwise_cons.mp h
    rw [multimapInsert]
    split
    · rename_i hlt
      refine List.pairwise_cons.mpr ⟨?_, h⟩
      intro y hy
      rcases List.mem_cons.mp hy with rfl | hy
      · exact Or.inl hlt
      · rcases hx.1 y hy with h1 | h1 <;> exact Or.inl (by omega)
    · rename_i hlt
      refine List.pairwise_cons.mpr ⟨?_, ih hx.2 fun y hy => hn y (by simp [hy])⟩
      intro y hy
      rcases List.mem_cons.mp ((multimapInsert_perm e l).mem_iff.mp hy) with rfl | hy
      · by_cases h1 : x.1 = y.1
        · exact Or.inr ⟨h1, hn x (by simp)⟩
        · exact Or.inl (by omega)
      · exact hx.1 y hy

theorem insertAll_perm (m : Map Nat) (acc : List (Nat × Str)) :
    (m.foldl (fun m e => multimapInsert (e.2, e.1) m) acc).Perm ((m.map fun e => (e.2, e.1)) ++ acc) := by
  induction m generalizing acc with
  | nil => exact List.Perm.refl _
  | cons x m ih =>
    rw [List.foldl_cons, List.map_cons, List.cons_append]
    exact (ih _).trans ((List.Perm.append_left _ (multimapInsert_perm _ _)).trans List.perm_middle)

theorem descending_perm (m : Map Nat) : (Frequency.descending m).Perm (m.map fun e => (e.2, e.1)) := by
  have h := insertAll_perm m []
  rw [List.append_nil] at h
  exact (List.reverse_perm _).trans h

theorem descending_sorted {m : Map Nat} (h : Sorted m) : (Frequency.descending m).Pairwise fun a b => Below b a := by
  have : ∀ (m : Map Nat) acc, Sorted m → acc.Pairwise Below → (∀ x ∈ acc, ∀ e ∈ m, strLt x.2 e.1 = true) →
      (m.foldl (fun m e => multimapInsert (e.2, e.1) m) acc).Pairwise Below := by
    intro m
    induction m with
    | nil => intro acc _ h _; exact h
    | cons x m ih =>
      intro acc hm h hn
      have hx := List.pairwise_cons.mp hm
      refine ih _ hx.2 (multimapInsert_sorted _ h fun y hy => hn y hy x (by simp)) ?_
      intro y hy e he
      rcases List.mem_cons.mp ((multimapInsert_perm _ _).mem_iff.mp hy) with rfl | hy
      · exact hx.1 e he
      · exact hn y hy e (by simp [he])
  rw [Frequency.descending, List.pairwise_reverse]
  exact this m [] h List.Pairwise.nil (by simp)

end Metaf.Performance
