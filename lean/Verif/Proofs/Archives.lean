import Verif.Proofs.Batches
import Mathlib.Data.List.Nodup

/-! What the archives of the check of performance hold. -/

namespace Metaf.Performance

open Metaf Metaf.Spec

/-- The index of a group in the array of archives. -/
def place (x : GroupInfo) : Nat := groupIndex x.group.index (reportPartIndex x.reportPart)

theorem place_lt (x : GroupInfo) : place x < 110 := by
  have h1 : x.group.index < 22 := by cases x.group <;> exact Nat.le_of_ble_eq_true rfl
  have h2 : reportPartIndex x.reportPart < 5 := by cases x.reportPart <;> exact Nat.le_of_ble_eq_true rfl
  simp only [place, groupIndex, reportPartSize]
  omega

theorem place_eq (x : GroupInfo) (k : Nat) (p : ReportPart) :
    place x = groupIndex k (reportPartIndex p) ↔ x.group.index = k ∧ x.reportPart = p := by
  have h2 : ∀ p, reportPartIndex p < 5 := by intro p; cases p <;> exact Nat.le_of_ble_eq_true rfl
  have h1 := h2 x.reportPart
  have h3 := h2 p
  constructor
  · intro h
    simp only [place, groupIndex, reportPartSize] at h
    have h4 : reportPartIndex x.reportPart = reportPartIndex p := by omega
    refine ⟨by omega, ?_⟩
    revert h4
    cases x.reportPart <;> cases p <;> simp [reportPartIndex]
  · rintro ⟨rfl, rfl⟩
    rfl

/-- The name of the file at an index. -/
def fileName (i : Nat) : Str := archiveNames.getD i []

theorem archiveNames_length : archiveNames.length = 110 := by decide +kernel

theorem archiveNames_nodup : (errorFile :: archiveNames).Nodup := by decide +kernel

theorem fileName_get {i : Nat} (h : i < 110) : archiveNames[i]? = some (fileName i) := by
  rw [fileName, List.getD_eq_getElem?_getD]
  have : i < archiveNames.length := by rw [archiveNames_length]; exact h
  rw [List.getElem?_eq_getElem this]
  rfl

theorem fileName_inj {i j : Nat} (hi : i < 110) (hj : j < 110) (h : fileName i = fileName j) : i = j := by
  have hn := (List.nodup_cons.mp archiveNames_nodup).2
  have hi' : i < archiveNames.length := by rw [archiveNames_length]; exact hi
  have hj' : j < archiveNames.length := by rw [archiveNames_length]; exact hj
  refine (List.Nodup.getElem_inj_iff hn (hi := hi') (hj := hj')).mp ?_
  rw [← Option.some_inj, ← List.getElem?_eq_getElem, ← List.getElem?_eq_getElem, fileName_get hi, fileName_get hj, h]

theorem fileName_mem {i : Nat} (h : i < 110) : fileName i ∈ archiveNames := List.mem_of_getElem? (fileName_get h)

theorem fileName_ne {i : Nat} (h : i < 110) : fileName i ≠ errorFile := fun he =>
  (List.nodup_cons.mp archiveNames_nodup).1 (he ▸ fileName_mem h)

/-- The files which may be changed. -/
def touched (files : Bool) : List Str := if files then errorFile :: archiveNames else []

/-- The archives hold these texts: `rec i` those of index `i`, `errs` those of reports with errors. -/
structure Kept (files : Bool) (disk : Disk) (a : Archiver) (rec : Nat → List Str) (errs : List Str) : Prop where
  len : a.archives.length = 110
  groups : ∀ i < 110, a.archives[i]? = some (if files then .file (fileName i) (rec i).length else .memory (rec i))
  errors : a.errorReports = if files then .file errorFile errs.length else .memory errs
  onDisk : files = true → (∀ i < 110, disk (fileName i) = some (fileOf (rec i))) ∧ disk errorFile = some (fileOf errs)

/-- The archives at the beginning. -/
theorem makeFiles_spec (disk : Disk) (names : List Str) (h : names.Nodup) :
    (makeFiles disk names).2 = names.map (Archive.file · 0) ∧
      (∀ n ∈ names, (makeFiles disk names).1 n = some []) ∧ ∀ n ∉ names, (makeFiles disk names).1 n = disk n := by
  induction names generalizing disk with
  | nil => exact ⟨rfl, by simp, fun n _ => rfl⟩
  | cons a names ih =>
    have hn := List.nodup_cons.mp h
    obtain ⟨h1, h2, h3⟩ := ih (disk.set a []) hn.2
    refine ⟨?_, ?_, ?_⟩
    · simp only [makeFiles, Archive.create, h1, List.map_cons]
    · intro n hm
      by_cases hna : n ∈ names
      · exact h2 n hna
      · rcases List.mem_cons.mp hm with rfl | hm
        · exact (h3 n hna).trans (by simp [Disk.set])
        · exact absurd hm hna
    · intro n hm
      rw [List.mem_cons, not_or] at hm
      exact (h3 n hm.2).trans (by simp [Disk.set, hm.1])

theorem make_kept (files : Bool) (disk : Disk) :
    Kept files (Archiver.make files disk).1 (Archiver.make files disk).2 (fun _ => []) [] ∧
      (files = false → (Archiver.make files disk).1 = disk) ∧
      ∀ n, n ∉ touched files → (Archiver.make files disk).1 n = disk n := by
  cases files with
  | false =>
    refine ⟨⟨by simp [Archiver.make, groupSize, reportPartSize], ?_, rfl, by simp⟩, fun _ => rfl, fun n _ => rfl⟩
    intro i hi
    simp only [Archiver.make, Bool.false_eq_true, if_false, groupSize, reportPartSize]
    rw [List.getElem?_replicate, if_pos hi]
  | true =>
    obtain ⟨h1, h2, h3⟩ := makeFiles_spec disk archiveNames (List.nodup_cons.mp archiveNames_nodup).2
    refine ⟨⟨?_, ?_, ?_, ?_⟩, by simp, ?_⟩
    · simp [Archiver.make, h1, archiveNames_length]
    · intro i hi
      simp only [Archiver.make, if_true, h1, List.getElem?_map, fileName_get hi]
      rfl
    · simp [Archiver.make, Archive.create]
    · intro _
      constructor
      · intro i hi
        have := h2 _ (fileName_mem hi)
        simp only [Archiver.make, if_true, Archive.create, Disk.set, fileName_ne hi, if_false, this, fileOf, List.flatMap_nil]
      · simp [Archiver.make, Archive.create, Disk.set, fileOf]
    · intro n hn
      rw [touched, if_pos rfl, List.mem_cons, not_or] at hn
      simp only [Archiver.make, if_true, Archive.create, Disk.set, hn.1, if_false, h3 n hn.2]

/-- A step which fails exactly if there is an empty text for a file, and otherwise leads to `P`. -/
def Ends {α : Type} (files : Bool) (bad : Prop) (run : Run α) (P : α → Prop) : Prop :=
  (files = true ∧ bad ∧ run = .error .emptyString) ∨ (¬ (files = true ∧ bad) ∧ ∃ r, run = .ok r ∧ P r)

theorem getLast?_ne {s : Str} (h : s ≠ []) : ∃ c, s.getLast? = some c ∧ c ∈ s :=
  ⟨_, List.getLast?_eq_some_getLast h, List.getLast_mem h⟩

theorem fileOf_snoc (ls : List Str) (s : Str) : fileOf (ls ++ [s]) = fileOf ls ++ (s ++ ['\n']) := by
  simp [fileOf]

/-- Text added to an archive. -/
theorem add_file (disk : Disk) (path : Str) (ls : List Str) (s : Str) (hd : disk path = some (fileOf ls))
    (hn : '\n' ∉ s) :
    Ends true (s = []) ((Archive.file path ls.length).add disk s) fun r =>
      r = (disk.set path (fileOf (ls ++ [s])), .file path (ls ++ [s]).length) := by
  by_cases hs : s = []
  · subst hs
    exact Or.inl ⟨rfl, rfl, rfl⟩
  · obtain ⟨c, hc, hm⟩ := getLast?_ne hs
    have hcn : c ≠ '\n' := fun h => hn (h ▸ hm)
    refine Or.inr ⟨fun h => hs h.2, _, ?_, rfl⟩
    simp only [Archive.add, hc, hd, Option.getD_some, if_pos hcn, fileOf_snoc, List.append_assoc, List.length_append,
      List.length_singleton]

theorem addGroup_kept {files : Bool} {disk : Disk} {a : Archiver} {rec : Nat → List Str} {errs : List Str}
    (h : Kept files disk a rec errs) (x : GroupInfo) (hn : '\n' ∉ x.rawString) :
    Ends files (x.rawString = []) (a.addGroup disk x) fun r =>
      Kept files r.1 r.2 (fun i => rec i ++ if place x = i then [x.rawString] else []) errs ∧
        ∀ n, n ∉ touched files → r.1 n = disk n := by
  have hp := place_lt x
  have hg := h.groups _ hp
  have hget : ∀ y i, i < 110 → (a.archives.set (place x) y)[i]? = if place x = i then some y else a.archives[i]? := by
    intro y i hi
    rw [List.getElem?_set]
    split
    · rw [if_pos (by rw [h.len]; exact hp)]
    · rfl
  cases files with
  | false =>
    refine Or.inr ⟨by simp, ?_⟩
    simp only [Bool.false_eq_true, if_false] at hg
    refine ⟨(disk, { a with archives := a.archives.set (place x) (.memory (rec (place x) ++ [x.rawString])) }), ?_, ?_, ?_⟩
    · simp only [Archiver.addGroup]
      rw [show groupIndex x.group.index (reportPartIndex x.reportPart) = place x from rfl, hg]
      rfl
    · refine ⟨by simp [h.len], ?_, h.errors, by simp⟩
      intro i hi
      rw [hget _ _ hi]
      split
      · rename_i he
        subst he
        simp
      · rw [h.groups _ hi]
        simp
    · intro n _
      rfl
  | true =>
    simp only [if_true] at hg
    obtain ⟨hd1, hd2⟩ := h.onDisk rfl
    rcases add_file disk (fileName (place x)) (rec (place x)) x.rawString (hd1 _ hp) hn with
      ⟨-, h1, h2⟩ | ⟨h1, r, h2, rfl⟩
    · refine Or.inl ⟨rfl, h1, ?_⟩
      simp only [Archiver.addGroup]
      rw [show groupIndex x.group.index (reportPartIndex x.reportPart) = place x from rfl, hg]
      simp only [h2]
      rfl
    · have ok : a.addGroup disk x = .ok (disk.set (fileName (place x)) (fileOf (rec (place x) ++ [x.rawString])),
          ⟨a.archives.set (place x) (Archive.file (fileName (place x)) (rec (place x) ++ [x.rawString]).length),
            a.errorReports⟩) := by
        simp only [Archiver.addGroup]
        rw [show groupIndex x.group.index (reportPartIndex x.reportPart) = place x from rfl, hg]
        simp only [h2]
        rfl
      refine Or.inr ⟨h1, _, ok, ?_, ?_⟩
      · refine ⟨by simp [h.len], ?_, h.errors, ?_⟩
        · intro i hi
          rw [hget _ _ hi]
          split
          · rename_i he
            subst he
            simp
          · rw [h.groups _ hi]
            simp
        · intro _
          constructor
          · intro i hi
            simp only [Disk.set]
            by_cases he : place x = i
            · subst he
              simp
            · rw [if_neg fun hf => he (fileName_inj hp hi hf.symm), hd1 i hi, if_neg he, List.append_nil]
          · simp only [Disk.set]
            rw [if_neg (fileName_ne hp).symm]
            exact hd2
      · intro n hm
        rw [touched, if_pos rfl, List.mem_cons, not_or] at hm
        simp only [Disk.set]
        have hne : n ≠ fileName (place x) := fun hf => hm.2 (hf ▸ fileName_mem hp)
        rw [if_neg hne]

theorem addError_kept {files : Bool} {disk : Disk} {a : Archiver} {rec : Nat → List Str} {errs : List Str}
    (h : Kept files disk a rec errs) (e : ReportError) (report : Str) (hn : files = true → '\n' ∉ report) :
    Ends files (report = []) (a.addErrorReport disk e report) fun r =>
      Kept files r.1 r.2 rec (errs ++ [reportErrorName e, report]) ∧
        ∀ n, n ∉ touched files → r.1 n = disk n := by
  have he := h.errors
  cases files with
  | false =>
    refine Or.inr ⟨by simp, ?_⟩
    simp only [Bool.false_eq_true, if_false] at he
    refine ⟨(disk, { a with errorReports := .memory (errs ++ [reportErrorName e, report]) }), ?_, ?_, fun _ _ => rfl⟩
    · simp only [Archiver.addErrorReport, he, Archive.add, bind, Except.bind, List.append_assoc, List.cons_append,
        List.nil_append]
    · exact ⟨h.len, h.groups, rfl, by simp⟩
  | true =>
    simp only [if_true] at he
    obtain ⟨hd1, hd2⟩ := h.onDisk rfl
    have hne : reportErrorName e ≠ [] := by cases e <;> simp [reportErrorName]
    have hnn : '\n' ∉ reportErrorName e := by cases e <;> decide +kernel
    rcases add_file disk errorFile errs _ hd2 hnn with ⟨-, h1, -⟩ | ⟨-, r, h1, rfl⟩
    · exact absurd h1 hne
    · rcases add_file (disk.set errorFile (fileOf (errs ++ [reportErrorName e]))) errorFile
          (errs ++ [reportErrorName e]) report (by simp [Disk.set]) (hn rfl) with ⟨-, h2, h3⟩ | ⟨h2, r, h3, rfl⟩
      · refine Or.inl ⟨rfl, h2, ?_⟩
        simp only [Archiver.addErrorReport, he, h1, bind, Except.bind, h3]
      · refine Or.inr ⟨h2, ?_⟩
        refine ⟨_, by simp only [Archiver.addErrorReport, he, h1, bind, Except.bind, h3]; rfl, ?_, ?_⟩
        · refine ⟨h.len, h.groups, ?_, ?_⟩
          · simp
          · intro _
            constructor
            · intro i hi
              simp only [Disk.set]
              rw [if_neg (fileName_ne hi), if_neg (fileName_ne hi)]
              exact hd1 i hi
            · simp [Disk.set]
        · intro n hm
          rw [touched, if_pos rfl, List.mem_cons, not_or] at hm
          simp only [Disk.set]
          rw [if_neg hm.1, if_neg hm.1]

/-- The texts of the groups with an index. -/
def textsAt (gs : List GroupInfo) (i : Nat) : List Str := (gs.filter fun x => place x = i).map GroupInfo.rawString

theorem addGroups_kept {files : Bool} {disk : Disk} {a : Archiver} {rec : Nat → List Str} {errs : List Str}
    (h : Kept files disk a rec errs) (gs : List GroupInfo) (hn : ∀ x ∈ gs, '\n' ∉ x.rawString) :
    Ends files (∃ x ∈ gs, x.rawString = []) (gs.foldlM (fun s gi => s.2.addGroup s.1 gi) (disk, a)) fun r =>
      Kept files r.1 r.2 (fun i => rec i ++ textsAt gs i) errs ∧
        ∀ n, n ∉ touched files → r.1 n = disk n := by
  induction gs generalizing disk a rec with
  | nil =>
    refine Or.inr ⟨by simp, (disk, a), rfl, ?_, fun _ _ => rfl⟩
    simpa [textsAt] using h
  | cons x gs ih =>
    rw [List.foldlM_cons]
    rcases addGroup_kept h x (hn x (by simp)) with ⟨hf, h1, h2⟩ | ⟨h1, r, h2, h3, h4⟩
    · exact Or.inl ⟨hf, ⟨x, by simp, h1⟩, by simp only [h2, bind, Except.bind]⟩
    · rcases ih h3 (fun y hy => hn y (by simp [hy])) with ⟨hf, ⟨y, hy, hy'⟩, h6⟩ | ⟨h5, r', h6, h7, h8⟩
      · exact Or.inl ⟨hf, ⟨y, by simp [hy], hy'⟩, by simp only [h2, bind, Except.bind]; exact h6⟩
      · refine Or.inr ⟨?_, r', by simp only [h2, bind, Except.bind]; exact h6, ?_, ?_⟩
        · rintro ⟨hf, y, hy, hy'⟩
          rcases List.mem_cons.mp hy with rfl | hy
          · exact h1 ⟨hf, hy'⟩
          · exact h5 ⟨hf, y, hy, hy'⟩
        · have : (fun i => rec i ++ textsAt (x :: gs) i) =
              fun i => (rec i ++ if place x = i then [x.rawString] else []) ++ textsAt gs i := by
            funext i
            simp only [textsAt, List.filter_cons, List.append_assoc]
            split <;> rename_i hx
            · have hx' : place x = i := by simpa using hx
              rw [if_pos hx', List.map_cons]
              rfl
            · have hx' : ¬ place x = i := by simpa using hx
              rw [if_neg hx']
              rfl
          rw [this]
          exact h7
        · intro n hm
          rw [h8 n hm, h4 n hm]

/-- The texts for the errors of reports. -/
def errorTexts (rs : List (ParseResult × Str)) : List Str :=
  rs.flatMap fun r => if r.1.reportMetadata.error ≠ .NONE then [reportErrorName r.1.reportMetadata.error, r.2] else []

/-- A result for which an empty text would be written to a file. -/
def Empty (r : ParseResult × Str) : Prop :=
  (r.1.reportMetadata.error ≠ .NONE ∧ r.2 = []) ∨ ∃ x ∈ r.1.groups, x.rawString = []

theorem toArchives_kept {files : Bool} {disk : Disk} {a : Archiver} {rec : Nat → List Str} {errs : List Str}
    (h : Kept files disk a rec errs) (rs : List (ParseResult × Str))
    (hn : ∀ r ∈ rs, (files = true → '\n' ∉ r.2) ∧ ∀ x ∈ r.1.groups, '\n' ∉ x.rawString) :
    Ends files (∃ r ∈ rs, Empty r) (toArchives disk a rs) fun r =>
      Kept files r.1 r.2 (fun i => rec i ++ textsAt (rs.flatMap fun r => r.1.groups) i) (errs ++ errorTexts rs) ∧
        ∀ n, n ∉ touched files → r.1 n = disk n := by
  induction rs generalizing disk a rec errs with
  | nil =>
    refine Or.inr ⟨by simp, (disk, a), rfl, ?_, fun _ _ => rfl⟩
    simpa [textsAt, errorTexts] using h
  | cons x rs ih =>
    rw [toArchives, List.foldlM_cons]
    change Ends _ _ ((archiveOne (disk, a) x).bind fun s : Disk × Archiver => toArchives s.1 s.2 rs) _
    obtain ⟨hn1, hn2⟩ := hn x (by simp)
    have hn3 : ∀ r ∈ rs, (files = true → '\n' ∉ r.2) ∧ ∀ x ∈ r.1.groups, '\n' ∉ x.rawString := fun r hr => hn r (by simp [hr])
    have first : Ends files (x.1.reportMetadata.error ≠ .NONE ∧ x.2 = [])
        (if x.1.reportMetadata.error ≠ .NONE then a.addErrorReport disk x.1.reportMetadata.error x.2 else .ok (disk, a))
        fun r => Kept files r.1 r.2 rec (errs ++ errorTexts [x]) ∧
          ∀ n, n ∉ touched files → r.1 n = disk n := by
      by_cases he : x.1.reportMetadata.error ≠ .NONE
      · simp only [if_pos he]
        have hx : errorTexts [x] = [reportErrorName x.1.reportMetadata.error, x.2] := by simp [errorTexts, he]
        rw [hx]
        rcases addError_kept h x.1.reportMetadata.error x.2 hn1 with ⟨hf, h1, h2⟩ | ⟨h1, r, h2, h3⟩
        · exact Or.inl ⟨hf, ⟨he, h1⟩, h2⟩
        · exact Or.inr ⟨fun hb => h1 ⟨hb.1, hb.2.2⟩, r, h2, h3⟩
      · have hx : errorTexts [x] = [] := by simp [errorTexts, not_not.mp he]
        rw [hx, List.append_nil, if_neg he]
        exact Or.inr ⟨fun hb => he hb.2.1, _, rfl, h, fun _ _ => rfl⟩
    rcases first with ⟨hf, h1, h2⟩ | ⟨h1, r, h2, h3, h4⟩
    · refine Or.inl ⟨hf, ⟨x, by simp, Or.inl h1⟩, ?_⟩
      simp only [archiveOne, h2, Except.bind]
    · simp only [archiveOne, h2, Except.bind]
      rcases addGroups_kept h3 x.1.groups hn2 with ⟨hf, h5, h6⟩ | ⟨h5, r', h6, h7, h8⟩
      · refine Or.inl ⟨hf, ⟨x, by simp, Or.inr h5⟩, ?_⟩
        simp only [Archiver.addResult, h6]
      · simp only [Archiver.addResult, h6]
        rcases ih h7 hn3 with ⟨hf, ⟨y, hy, hy'⟩, h10⟩ | ⟨h9, r'', h10, h11, h12⟩
        · exact Or.inl ⟨hf, ⟨y, by simp [hy], hy'⟩, h10⟩
        · refine Or.inr ⟨?_, r'', h10, ?_, ?_⟩
          · rintro ⟨hf, y, hy, hy'⟩
            rcases List.mem_cons.mp hy with rfl | hy
            · rcases hy' with hy' | hy'
              · exact h1 ⟨hf, hy'⟩
              · exact h5 ⟨hf, hy'⟩
            · exact h9 ⟨hf, y, hy, hy'⟩
          · have e1 : (fun i => rec i ++ textsAt ((x :: rs).flatMap fun r => r.1.groups) i) =
                fun i => (rec i ++ textsAt x.1.groups i) ++ textsAt (rs.flatMap fun r => r.1.groups) i := by
              funext i
              simp [textsAt]
            have e2 : errs ++ errorTexts (x :: rs) = (errs ++ errorTexts [x]) ++ errorTexts rs := by
              simp [errorTexts]
            rw [e1, e2]
            exact h11
          · intro n hm
            rw [h12 n hm, h8 n hm, h4 n hm]

/-! ### Reading the archives -/

/-- The texts of an archive as a loop sees them: in files only the full batches of 1000, if there are more. -/
def shown (files : Bool) (ls : List Str) : List Str := if files then inFullBatches 1000 ls else ls

theorem read_group {files : Bool} {disk : Disk} {a : Archiver} {rec : Nat → List Str} {errs : List Str}
    (h : Kept files disk a rec errs) (hn : ∀ i, ∀ s ∈ rec i, '\n' ∉ s) (k : Nat) (p : ReportPart) (hk : k < 22) :
    ∃ src bs, a.getBatchGroup disk k p = .ok src ∧ src.all = .ok bs ∧
      bs.flatten = shown files (rec (groupIndex k (reportPartIndex p))) ∧
      bs.length = if files then max 1 ((rec (groupIndex k (reportPartIndex p))).length / 1000) else 1 := by
  have hi : groupIndex k (reportPartIndex p) < 110 := by
    have : reportPartIndex p < 5 := by cases p <;> exact Nat.le_of_ble_eq_true rfl
    simp only [groupIndex, reportPartSize]
    omega
  have hg := h.groups _ hi
  cases files with
  | false =>
    simp only [Bool.false_eq_true, if_false] at hg
    refine ⟨.memory (rec (groupIndex k (reportPartIndex p))), _, ?_, all_memory _, ?_, rfl⟩
    · simp only [Archiver.getBatchGroup, hg, Archive.getBatchProcess]
    · simp [shown]
  | true =>
    simp only [if_true] at hg
    obtain ⟨src, bs, h1, h2, h3⟩ := all_file (k := 1000) (Nat.le_of_ble_eq_true rfl) ((h.onDisk rfl).1 _ hi)
      (fileLines_fileOf (hn _))
    refine ⟨src, bs, ?_, h2, flatten_inBatches h3, length_inBatches (Nat.le_of_ble_eq_true rfl) h3⟩
    simp only [Archiver.getBatchGroup, hg, Archive.getBatchProcess]
    exact h1

theorem read_errors {files : Bool} {disk : Disk} {a : Archiver} {rec : Nat → List Str} {errs : List Str}
    (h : Kept files disk a rec errs) (hn : files = true → ∀ s ∈ errs, '\n' ∉ s) :
    a.errorReports.print disk = .ok (fileOf (shown files errs)) ∧ a.errorReports.size = errs.length := by
  have he := h.errors
  cases files with
  | false =>
    simp only [Bool.false_eq_true, if_false] at he
    rw [he]
    refine ⟨?_, rfl⟩
    simp only [Archive.print, Archive.getBatchProcess, bind, Except.bind, all_memory, shown, fileOf, List.flatten_cons,
      List.flatten_nil, List.append_nil, Bool.false_eq_true, if_false]
  | true =>
    simp only [if_true] at he
    rw [he]
    refine ⟨?_, rfl⟩
    obtain ⟨src, bs, h1, h2, h3⟩ := all_file (k := 1000) (Nat.le_of_ble_eq_true rfl) (h.onDisk rfl).2
      (fileLines_fileOf (hn rfl))
    simp only [Archive.print, Archive.getBatchProcess, bind, Except.bind, h1, h2, flatten_inBatches h3, shown, fileOf, if_true]

end Metaf.Performance
