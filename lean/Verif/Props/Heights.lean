import Verif.Props.Modest
import Verif.Props.Measurements

/-!
How large the distances and heights in the groups of a report can be. Used for C98.
-/

set_option linter.unusedSectionVars false

namespace Metaf.Props

open Metaf Metaf.Spec

variable [FloatIeee]

/-- At most two million units, which are metres, feet or parts of a mile. -/
def Near (d : Distance) : Prop := ∀ n, d.dist = some n → n ≤ 2000000

/-- The distances in a group are bounded, as are the numbers of corrections and issuers. -/
def Bounded : Group → Prop
  | .wind g => Near g.wShHeight
  | .visibility g => Near g.vis ∧ Near g.visMax
  | .cloud g => Near g.heightOrVertVis ∧ Near g.maxHt ∧ Near g.cldTp.ht
  | .layerForecast g => Near g.layerBaseHeight ∧ Near g.layerTopHeight
  | .cloudTypes g => ∀ c ∈ g.cldTp, Near c.ht
  | .lightning g => Near g.dist
  | .vicinity g => Near g.dist
  | .misc g => g.groupType ∈ [.CORRECTED_WEATHER_OBSERVATION, .ISSUER_ID_FN, .ISSUER_ID_FS] →
      ∀ q ∈ g.groupData, 0 ≤ q ∧ q ≤ 100000
  | _ => True

theorem near_none {m : Modifier} {u : DistanceUnit} : Near ⟨m, none, u⟩ := fun _ h => nomatch h

theorem near_some {m : Modifier} {u : DistanceUnit} {k : Nat} (h : k ≤ 2000000) : Near ⟨m, some k, u⟩ := by
  rintro _ ⟨⟩
  exact h

theorem near_modest {d : Distance} (h : ModestDistance d) : Near d := by
  intro n hn
  rcases h n hn with h | ⟨-, h⟩ <;> omega

/-! ### Wind -/

theorem wind_bounded {p : ReportPart} {now : Option Nat} {ws : List Str} {g : WindGroup}
    (h : WindSequence p now ws g) : Bounded (.wind g) := by
  have key : ∀ w : WindText, w.Ok → Near w.group.wShHeight := by
    intro w hw
    unfold WindText.group
    split
    · exact near_none
    · cases hs : w.shear with
      | none => exact near_none
      | some k =>
        have := hw.1 k hs
        exact near_some (by omega)
  cases h with
  | wind _ h => exact key _ h
  | windAndSector _ h => exact key _ h
  | _ => exact near_none

/-! ### Visibility -/

theorem amount_near {as : List Str} {k : AmountKind} {v x : Distance} (h : Amount as k v x) :
    Near v ∧ Near x := by
  refine ⟨near_modest (amount_modest h), near_modest ?_⟩
  cases h with
  | rangeWhole _ h => exact miles_modest (by have := mileWord_bound h.1; constructor <;> linarith)
  | range _ h => exact miles_modest (by have := mileWord_bound h.1; constructor <;> linarith)
  | rangeMixed _ h1 h2 =>
    have h1 := mileWord_bound h1.1
    have h2 := fraction_bound h2
    exact miles_modest (by constructor <;> linarith)
  | meterRange _ h => exact meterWord_modest h
  | _ => exact fun n hn => nomatch hn

theorem visRemark_bounded {ws : List Str} {g : VisibilityGroup} (h : VisRemark ws g) :
    Bounded (.visibility g) := by
  cases h with
  | visAmount h => exact amount_near h
  | visAmountRunway h => exact amount_near h
  | visWhereAmount _ h => exact amount_near h
  | observerAmount _ h => exact ⟨(amount_near h).1, near_none⟩
  | _ => exact ⟨near_none, near_none⟩

theorem bodyVisibility_bounded {s : Str} {g : VisibilityGroup} (h : BodyVisibility s g) :
    Bounded (.visibility g) := by
  refine ⟨near_modest (bodyVisibility_modest h), ?_⟩
  rcases h with ⟨k, n, hk, hn, -, rfl⟩ | ⟨v, x, d, t, o, hv, -, -, rfl⟩ | ⟨d, hd, rfl⟩ <;> exact near_none

theorem rvr_bounded {v : RvrText} (h : v.Ok) : Bounded (.visibility v.group) := by
  refine ⟨near_modest (rvr_modest h), ?_⟩
  obtain ⟨-, -, h, -⟩ := h
  show Near (if v.max.isSome then RvrText.distance v.max v.feet else {})
  cases hv : v.max with
  | none => exact near_none
  | some x =>
    have := h x hv
    exact near_some (by omega)

/-! ### Clouds -/

theorem hundreds_near {n : Nat} (h : n < 1000) : Near (hundreds n) := near_some (by omega)

theorem layer_bounded {s : Str} {g : CloudGroup} (h : LayerGroup s g) : Bounded (.cloud g) := by
  obtain ⟨_, _, h, _, _, -, hn, -, -, -, rfl⟩ := h
  refine ⟨?_, near_none, near_none⟩
  cases h with
  | none => exact near_none
  | some n => exact hundreds_near (hn n rfl)

theorem ceiling_bounded {s : Str} {g : CloudGroup} (h : CeilingWord s g) : Bounded (.cloud g) := by
  cases h with
  | height h => exact ⟨hundreds_near h, near_none, near_none⟩
  | range h h' => exact ⟨hundreds_near h, hundreds_near h', near_none⟩

theorem amountText_near {s : Str} {a : Metaf.Amount} {h : Option Nat} (ha : AmountText s a h) :
    Near ((h.map hundreds).getD {}) := by
  obtain ⟨t, -, hn, -⟩ := ha
  cases h with
  | none => exact near_none
  | some n => exact hundreds_near (hn n rfl)

theorem cloudRemark_bounded {ws : List Str} {g : CloudGroup} (h : CloudRemark ws g) : Bounded (.cloud g) := by
  cases h with
  | ceilingHeight h => have := ceiling_bounded h; exact this
  | ceilingPlace h => have := ceiling_bounded h; exact this
  | obscurationAmount _ h => exact ⟨amountText_near h, near_none, amountText_near h⟩
  | amount h => exact ⟨amountText_near h, near_none, near_none⟩
  | amountV h => exact ⟨amountText_near h, near_none, near_none⟩
  | varying h => exact ⟨amountText_near h, near_none, near_none⟩
  | _ => exact ⟨near_none, near_none, near_none⟩

theorem layers_near {P : Str → CloudType → Prop} (hp : ∀ s c, P s c → Near c.ht) {ws : List Str}
    {cs : List CloudType} (h : List.Forall₂ P ws cs) : Bounded (.cloudTypes ⟨cs⟩) := by
  show ∀ c ∈ cs, Near c.ht
  induction h with
  | nil => simp
  | cons h _ ih =>
    intro c hc
    rcases List.mem_cons.mp hc with rfl | hc
    · exact hp _ _ h
    · exact ih c hc

/-! ### Other groups -/

theorem layerWritten_bounded {s : Str} {g : LayerForecastGroup}
    (h : LayerWritten s g.layerBaseHeight g.layerTopHeight) : Bounded (.layerForecast g) := by
  show Near g.layerBaseHeight ∧ Near g.layerTopHeight
  rcases h with ⟨-, h1, h2⟩ | ⟨n, m, hn, hm, -, h1, h2⟩ <;> rw [h1, h2]
  · exact ⟨near_none, near_none⟩
  · exact ⟨near_some (by omega), near_some (by omega)⟩

theorem lightning_bounded {ws : List Str} {g : LightningGroup} {c1 c2 : List Cardinal}
    (h : LightningText ws g c1 c2) : Bounded (.lightning g) := by
  rcases h with ⟨w, f, -, -, rfl, -⟩ | ⟨fw, f, ty, ds, hd, f1, t1, f2, t2, -, -, -, -, rfl⟩
  · exact near_none
  · show Near (lastDistance ds)
    unfold lastDistance
    split
    · exact near_none
    · split <;> exact near_none

theorem distanceWord_near {w : Str} {d : Distance} (h : DistanceWord w d) : Near d := by
  rcases h with ⟨-, rfl⟩ | ⟨-, rfl⟩ | ⟨k, n, hk, hn, -, rfl⟩
  · exact near_none
  · exact near_none
  · have : n < 100 := by rcases hk with rfl | rfl <;> omega
    exact near_some (by omega)

theorem distanceWords_near {ws : List Str} {d : Distance} (h : DistanceWords ws d) : Near d := by
  rcases h with ⟨-, rfl⟩ | ⟨w, h, -⟩
  · exact near_none
  · exact distanceWord_near h

theorem vicinity_bounded {ws : List Str} {g : VicinityGroup} {c1 c2 : List Cardinal}
    (h : VicinityText ws g c1 c2) : Bounded (.vicinity g) := by
  cases h with
  | rotor => exact near_none
  | kind => exact near_none
  | distance _ h => exact distanceWord_near h
  | heading _ h => exact distanceWords_near h
  | headingAnd _ h => exact distanceWords_near h
  | headings _ h => exact distanceWords_near h
  | moving _ h => exact distanceWords_near h
  | moved _ h => exact distanceWords_near h

theorem misc_bounded {p : ReportPart} {ws : List Str} {g : MiscGroup} (h : MiscText p ws g) :
    Bounded (.misc g) := by
  show _ ∈ _ → ∀ q ∈ g.groupData, _
  have key : ∀ n : Nat, n ≤ 100000 → ∀ q ∈ some ((n : Rat)), 0 ≤ q ∧ q ≤ 100000 := by
    intro n hn q hq
    obtain rfl := Option.some.inj hq
    exact ⟨by positivity, by exact_mod_cast hn⟩
  cases h with
  | colour => exact fun _ q hq => nomatch hq
  | correction h => exact fun _ => key _ (by omega)
  | issuerN h => exact fun _ => key _ (by omega)
  | issuerS h => exact fun _ => key _ (by omega)
  | _ => exact fun h => absurd h (by simp)

/-! ### All groups -/

theorem written_bounded {p : ReportPart} {ws : List Str} {g : Group} (h : Written p ws g) : Bounded g := by
  cases h with
  | wind h => exact wind_bounded h
  | visibility h => exact bodyVisibility_bounded h
  | runwayVisualRange _ h => exact rvr_bounded h
  | @milesAndFraction k n s f hk hn h =>
    obtain ⟨-, h2⟩ := milesGroup_bound h f rfl
    have : n < 100 := by rcases hk with rfl | rfl <;> omega
    exact ⟨near_some (by omega), near_none⟩
  | noClouds => exact ⟨near_none, near_none, near_none⟩
  | cloud h => exact layer_bounded h
  | layer _ _ h => exact layerWritten_bounded h
  | misc h => exact misc_bounded h
  | _ => trivial

theorem settled_bounded {g : Group} (h : Bounded g) : Bounded (settled g) := by
  cases g <;> exact h

theorem remark_bounded {now : Option Nat} {ws : List Str} {g : Group} (h : Remark now ws g) : Bounded g := by
  cases h with
  | fixed h =>
    simp only [fixedWords, List.mem_cons, Prod.mk.injEq, List.not_mem_nil, or_false] at h
    rcases h with ⟨-, rfl⟩ | ⟨-, rfl⟩ | ⟨-, rfl⟩ | ⟨-, rfl⟩ | ⟨-, rfl⟩ | ⟨-, rfl⟩ | ⟨-, rfl⟩ <;> trivial
  | missing h =>
    simp only [missingWords, List.mem_cons, Prod.mk.injEq, List.not_mem_nil, or_false] at h
    rcases h with ⟨-, rfl, -⟩ | ⟨-, rfl, -⟩ | ⟨-, rfl, -⟩ | ⟨-, rfl, -⟩ | ⟨-, rfl, -⟩ | ⟨-, rfl, -⟩ <;> trivial
  | missingSaid h =>
    simp only [missingWords, List.mem_cons, Prod.mk.injEq, List.not_mem_nil, or_false] at h
    rcases h with ⟨-, -, rfl⟩ | ⟨-, -, rfl⟩ | ⟨-, -, rfl⟩ | ⟨-, -, rfl⟩ | ⟨-, -, rfl⟩ | ⟨-, -, rfl⟩ <;> trivial
  | wind h => exact wind_bounded h
  | visibility h => exact visRemark_bounded h
  | cloud h => exact cloudRemark_bounded h
  | cloudTypes _ _ h =>
    refine layers_near ?_ h
    rintro s c ⟨t, k, n, m, -, -, hm, -, rfl⟩
    exact hundreds_near hm
  | cloudOktas _ _ h =>
    refine layers_near ?_ h
    rintro s c ⟨t, k, n, -, -, -, rfl⟩
    exact near_none
  | lightning h => exact lightning_bounded h
  | vicinity h => exact vicinity_bounded h
  | misc h => exact misc_bounded h
  | _ => trivial

/-- Every group of every result of parsing is bounded. -/
theorem said_bounded {report : Str} {limit : Nat} {r : ParseResult} (h : Result report limit r) :
    ∀ x ∈ r.groups, Bounded x.group := by
  refine every_group (O := fun _ g => Bounded g) (fun _ _ => trivial) ?_ (fun _ => trivial)
    (fun _ _ _ _ hw _ => written_bounded hw)
    (fun _ _ _ _ hr _ => settled_bounded (remark_bounded hr)) (fun _ _ _ _ hr => remark_bounded hr) h
  intro s g hw
  cases hw <;> trivial

end Metaf.Props
