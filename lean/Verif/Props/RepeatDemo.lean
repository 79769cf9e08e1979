import Verif.Props.DownloadsDemo
import Verif.Props.Repeat

/-!
# Interrupted, repeated and split calls: the hypotheses of C141-C143 can be met
-/

namespace Verif.Props

open Verif MapTileRenderer Dwd Spec
open Verif.Spec.Grib2 (Msg encode)

/-- An environment in which some downloads fail. -/
def lossyEnvironment (m : Libm) (dirs : Text → Bool) (today : Date) (gone : Text → Bool) : Environment :=
  ⟨m, shakyWorld weatherMsg fun u => if gone u then none else some (encode weatherMsg).length, webService, demoCalendar,
    dirs, today, today, fun _ => false⟩

theorem lossy_extends (m : Libm) (dirs dirs' : Text → Bool) (today : Date) {gone gone' : Text → Bool}
    (h : ∀ u, gone' u = true → gone u = true) :
    (lossyEnvironment m dirs today gone).Extends (lossyEnvironment m dirs' today gone') := by
  refine ⟨rfl, .of_downloads (fun url body hb => ?_) (fun _ _ hb => by cases hb) rfl,
    ⟨fun _ h => h, fun _ h => h, fun _ _ _ h => h⟩, rfl, rfl, rfl, rfl⟩
  have e : (shakyWorld weatherMsg fun u => if gone u then none else some (encode weatherMsg).length).download url =
      some body := hb
  show (shakyWorld weatherMsg fun u => if gone' u then none else some (encode weatherMsg).length).download url = some body
  rw [← e]
  unfold shakyWorld
  cases hg : gone url with
  | true =>
    unfold shakyWorld at e
    simp [hg] at e
  | false =>
    have : gone' url = false := by
      cases hg' : gone' url with
      | true => rw [h url hg'] at hg; cases hg
      | false => rfl
    simp [hg, this]

theorem lossy_published (m : Libm) (dirs : Text → Bool) (today : Date) (gone : Text → Bool) {run : Run}
    (hd : IsDwd run.model) (r : Req) {url : Text} (hu : fileUrl run r = .ok url) (hg : gone url = false) :
    AreaPublished (lossyEnvironment m dirs today gone).world run demoArea 2 2 r := by
  obtain ⟨url', hu', -, hz⟩ := C52_download hd r
  rw [hu] at hu'
  cases hu'
  have hdl : (lossyEnvironment m dirs today gone).world.download url = some (encode weatherMsg) := by
    show Option.map (encode weatherMsg).take (if gone url then none else some (encode weatherMsg).length) = _
    rw [hg]
    simp
  refine ⟨weatherMsg, ⟨weatherMsg_ok, .inl trivial, url, _, [], hu, hdl, ?_⟩, weatherMsg_area, fun _ _ => weatherMsg_codes⟩
  exact (List.append_nil _).symm

/-- The run that is found if none is complete: the last one of yesterday. -/
def fallbackRun (today : Date) : Run := ⟨.iconD2, today.yesterday, "21".toList⟩

theorem lossy_run (today : Date) (model : FcModel) (hd : IsDwd model) :
    findLatestRun model today today (fun _ => false) = .ok (fallbackRun today) := by
  rcases C51_cases hd (fun _ => false) today today with ⟨name, hn, -⟩ | ⟨-, h⟩
  · obtain ⟨url, -, h2⟩ := hn.2.1 (.single .t2m (lastHour model)) (by simp [probes])
    simp at h2
  · exact h

/-- The hypotheses of C141, C142 and C143 can be met: if nothing is missing, every call succeeds. -/
theorem lossless_succeeds (m : Libm) (hm : AccurateRow m) (dirs : Text → Bool) (today : Date) (vars : List Text)
    (filter : List Nat) :
    ∃ tr, mainEffect (lossyEnvironment m dirs today fun _ => false) "icon-d2".toList vars filter tr .done := by
  have hd : IsDwd FcModel.iconD2 := .inl rfl
  have all : ∀ run : Run, IsDwd run.model → ∀ r,
      AreaPublished (lossyEnvironment m dirs today fun _ => false).world run demoArea 2 2 r := by
    intro run h r
    obtain ⟨url, hu, -⟩ := C52_download h r
    exact lossy_published m dirs today _ h r hu rfl
  have hrun : ∀ run, findLatestRun .iconD2 today today (fun _ => false) = .ok run → IsDwd run.model := by
    intro run h
    rw [lossy_run today .iconD2 hd] at h
    cases h
    exact hd
  obtain ⟨⟨tr, o, h⟩, h2⟩ := C130_main (lossyEnvironment m dirs today fun _ => false) hm vars filter .iconD2 hd demoArea
    demoArea_valid 2 2 fun run h => ⟨fun _ _ _ _ _ r _ => .inl (all run (hrun run h) r),
      fun _ _ _ _ => .inl (all run (hrun run h) _)⟩
  have ho : o = .done := (h2 tr o h).2.mpr fun run h => ⟨fun _ _ _ _ _ r _ => all run (hrun run h) r,
      fun _ _ _ _ => all run (hrun run h) _⟩
  exact ⟨tr, ho ▸ h⟩

/-- The hypotheses of C143 can be met by a call that fails after it has written files: all downloads fail but the one of
the temperature after three hours. -/
example (m : Libm) (hm : AccurateRow m) (dirs : Text → Bool) :
    ∃ (gone : Text → Bool) (tr tr' : List Write),
      (lossyEnvironment m dirs ⟨2025, 8, 5⟩ gone).Extends (lossyEnvironment m dirs ⟨2025, 8, 5⟩ fun _ => false) ∧
      mainEffect (lossyEnvironment m dirs ⟨2025, 8, 5⟩ gone) "icon-d2".toList
        [LayerType.temp2m.name, LayerType.verticalCloud.name] [3] tr .failed ∧
      tr ≠ [] ∧
      mainEffect (lossyEnvironment m dirs ⟨2025, 8, 5⟩ fun _ => false) "icon-d2".toList
        [LayerType.temp2m.name, LayerType.verticalCloud.name] [3] tr' .done ∧
      ∀ before : Tree, (before.write tr).write tr' = before.write tr' := by
  have hd : IsDwd (fallbackRun ⟨2025, 8, 5⟩).model := .inl rfl
  obtain ⟨url, hu, hu1, -⟩ := C52_download hd (.single .t2m 3)
  obtain ⟨url', hu', hu1', -⟩ := C52_download hd (.hhl 25)
  have hne : url' ≠ url := by
    rintro rfl
    have hr : UsualRun (fallbackRun ⟨2025, 8, 5⟩) := ⟨hd, ⟨by unfold Date.Valid; decide +kernel, by decide +kernel, by decide +kernel⟩,
      by decide +kernel⟩
    cases (C52_injective hr hr _ _ hu hu').2
  obtain ⟨gone, hg⟩ : ∃ gone : Text → Bool, gone = fun u => decide (u ≠ url) := ⟨_, rfl⟩
  have hx := lossy_extends m dirs dirs ⟨2025, 8, 5⟩ (gone := gone) (gone' := fun _ => false) (by simp)
  obtain ⟨tr', h'⟩ := lossless_succeeds m hm dirs ⟨2025, 8, 5⟩ [LayerType.temp2m.name, LayerType.verticalCloud.name] [3]
  have hpub : ∀ s ∈ (fallbackRun ⟨2025, 8, 5⟩).model.forecastSteps, Chosen [3] s → ∀ r,
      Uses (fallbackRun ⟨2025, 8, 5⟩).model .temp2m s.nr r →
      AreaPublished (lossyEnvironment m dirs ⟨2025, 8, 5⟩ gone).world (fallbackRun ⟨2025, 8, 5⟩) demoArea 2 2 r := by
    intro s hs hc r hr
    have e : s.nr = 3 := by
      rcases hc with h | h
      · cases h
      · simpa using h
    have hr : r = .single .t2m s.nr := hr
    rw [e] at hr
    subst hr
    exact lossy_published m dirs ⟨2025, 8, 5⟩ gone hd _ hu (by simp [hg])
  have hv : ∀ v, ChosenVar [LayerType.temp2m.name] v → v = .temp2m := fun v hv => chosen_single hv
  have hhl : readHhl (lossyEnvironment m dirs ⟨2025, 8, 5⟩ gone).world (fallbackRun ⟨2025, 8, 5⟩)
      (fallbackRun ⟨2025, 8, 5⟩).model.verticalLevels = .err := by
    have hlost : (lossyEnvironment m dirs ⟨2025, 8, 5⟩ gone).world.readSingle url' = .err :=
      Lost.readSingle hu1' (.missing (by
        show Option.map _ (if gone url' then none else some (encode weatherMsg).length) = none
        rw [hg]
        simp [hne]))
    have e : rangeIncl 25 65 = 25 :: rangeIncl 26 65 := by decide
    show Res.mapM _ (rangeIncl 25 65) = .err
    rw [e]
    show Res.bind (Res.bind (fileUrl (fallbackRun ⟨2025, 8, 5⟩) (.hhl 25)) fun url =>
      Res.bind ((lossyEnvironment m dirs ⟨2025, 8, 5⟩ gone).world.readSingle url) _) _ = .err
    rw [hu']
    show Res.bind (Res.bind ((lossyEnvironment m dirs ⟨2025, 8, 5⟩ gone).world.readSingle url') _) _ = .err
    rw [hlost]
    rfl
  have htemp := C130_run m hm (lossyEnvironment m dirs ⟨2025, 8, 5⟩ gone).world dirs [LayerType.temp2m.name] [3]
    (fallbackRun ⟨2025, 8, 5⟩) hd demoArea demoArea_valid 2 2
    (fun v hv' s hs hc r hr => .inl (hpub s hs hc r (by rw [hv v hv'] at hr; exact hr)))
    (by rintro (h | h) <;> exact absurd (hv _ h) (by simp))
  obtain ⟨⟨tr, o, ht⟩, h2⟩ := htemp
  have ho := (h2 tr o ht).2.mpr ⟨fun v hv' s hs hc r hr => hpub s hs hc r (by rw [hv v hv'] at hr; exact hr),
    by rintro (h | h) <;> exact absurd (hv _ h) (by simp)⟩
  subst ho
  have htr : tr ≠ [] := by
    obtain ⟨l, hl, hc, hw⟩ := bin_of_run (v := .temp2m) (s := ⟨3, []⟩) (by decide) ht (.inr (by simp)) (by simp) (by decide)
      (.inr (by simp))
    have := variable_of_dwd hl
    cases l <;> try cases this
    obtain ⟨b, hb⟩ := hc.2
    rintro rfl
    cases hw (fun _ => none) _ _ (.temp hb)
  have hsteps : Dwd.renderTemp m (lossyEnvironment m dirs ⟨2025, 8, 5⟩ gone).world dirs [3]
      (fallbackRun ⟨2025, 8, 5⟩) tr .done := by
    unfold Dwd.renderRun at ht
    have c1 : variableChosen [LayerType.temp2m.name] .cloudPrecip = false := by decide +kernel
    have c2 : variableChosen [LayerType.temp2m.name] .wind10m = false := by decide +kernel
    have c3 : variableChosen [LayerType.temp2m.name] .temp2m = true := by decide +kernel
    have c4 : ([LayerType.temp2m.name].isEmpty || [LayerType.temp2m.name].contains LayerType.verticalCloud.name ||
      [LayerType.temp2m.name].contains LayerType.verticalWind.name) = false := by decide +kernel
    rw [c1, c2, c3, c4] at ht
    have skip : ∀ {e : Effect} {tr}, Effect.when false e tr .done → tr = [] := fun h => h.1
    cases ht with
    | stop _ ho => exact absurd rfl ho
    | cons h1 ht =>
      cases skip h1
      cases ht with
      | stop _ ho => exact absurd rfl ho
      | cons h1 ht =>
        cases skip h1
        cases ht with
        | stop _ ho => exact absurd rfl ho
        | cons h1 ht =>
          cases ht with
          | stop _ ho => exact absurd rfl ho
          | cons h2 ht =>
            cases skip h2
            cases ht
            simp only [List.append_nil, List.nil_append]
            exact h1
  have hfail : mainEffect (lossyEnvironment m dirs ⟨2025, 8, 5⟩ gone) "icon-d2".toList
      [LayerType.temp2m.name, LayerType.verticalCloud.name] [3] tr .failed := by
    unfold mainEffect
    rw [if_neg (by decide), if_pos rfl]
    unfold Dwd.renderLatest
    have : findLatestRun .iconD2 (⟨2025, 8, 5⟩ : Date) ⟨2025, 8, 5⟩ (fun _ => false) = .ok (fallbackRun ⟨2025, 8, 5⟩) :=
      lossy_run _ _ hd
    show Effect.need (findLatestRun .iconD2 (⟨2025, 8, 5⟩ : Date) ⟨2025, 8, 5⟩ (fun _ => false)) _ tr .failed
    rw [this]
    show Dwd.renderRun m (lossyEnvironment m dirs ⟨2025, 8, 5⟩ gone).world dirs _ [3] (fallbackRun ⟨2025, 8, 5⟩) tr .failed
    unfold Dwd.renderRun
    rw [hhl]
    have skip : ∀ {e : Effect}, Effect.when false e [] .done := ⟨rfl, rfl⟩
    have c1 : variableChosen [LayerType.temp2m.name, LayerType.verticalCloud.name] .cloudPrecip = false := by decide +kernel
    have c2 : variableChosen [LayerType.temp2m.name, LayerType.verticalCloud.name] .wind10m = false := by decide +kernel
    have c3 : variableChosen [LayerType.temp2m.name, LayerType.verticalCloud.name] .temp2m = true := by decide +kernel
    have c4 : ([LayerType.temp2m.name, LayerType.verticalCloud.name].isEmpty ||
      [LayerType.temp2m.name, LayerType.verticalCloud.name].contains LayerType.verticalCloud.name ||
      [LayerType.temp2m.name, LayerType.verticalCloud.name].contains LayerType.verticalWind.name) = true := by decide +kernel
    rw [c1, c2, c3, c4]
    refine .cons (tr := []) skip (.cons (tr := []) skip ?_)
    have hs := Seq.cons (ws := [Effect.when true (Effect.need (Res.err : Res (List (LatLonValueGrid UInt8))) fun hhl =>
        Seq [Effect.when (variableChosen [LayerType.temp2m.name, LayerType.verticalCloud.name] .verticalCloud)
            (renderVerticalCloud m (lossyEnvironment m dirs ⟨2025, 8, 5⟩ gone).world dirs [3] (fallbackRun ⟨2025, 8, 5⟩) hhl),
          Effect.when (variableChosen [LayerType.temp2m.name, LayerType.verticalCloud.name] .verticalWind)
            (renderVerticalWind m (lossyEnvironment m dirs ⟨2025, 8, 5⟩ gone).world dirs [3] (fallbackRun ⟨2025, 8, 5⟩) hhl)])])
      (w := Effect.when true (renderTemp m (lossyEnvironment m dirs ⟨2025, 8, 5⟩ gone).world dirs [3]
        (fallbackRun ⟨2025, 8, 5⟩))) (tr' := []) (o := .failed) hsteps (.stop ⟨rfl, rfl⟩ (by simp))
    rw [List.append_nil] at hs
    exact hs
  exact ⟨gone, tr, tr', hx, hfail, htr, h', fun before => C143_resume hx _ _ _ _ _ _ hfail h' before⟩

/-- The hypotheses of C141 and C142 can be met. -/
example (m : Libm) (hm : AccurateRow m) (dirs : Text → Bool) (today : Date) (before : Tree) :
    ∃ tr tr₁ tr₂, mainEffect (lossyEnvironment m dirs today fun _ => false) "icon-d2".toList [] [3, 5] tr .done ∧
      mainEffect (lossyEnvironment m dirs today fun _ => false) "icon-d2".toList [] [3] tr₁ .done ∧
      mainEffect (lossyEnvironment m dirs today fun _ => false) "icon-d2".toList [] [5] tr₂ .done ∧
      (before.write tr₁).write tr₂ = before.write tr ∧ (before.write tr).write tr = before.write tr := by
  obtain ⟨tr, h⟩ := lossless_succeeds m hm dirs today [] [3, 5]
  obtain ⟨tr₁, h₁⟩ := lossless_succeeds m hm dirs today [] [3]
  obtain ⟨tr₂, h₂⟩ := lossless_succeeds m hm dirs today [] [5]
  exact ⟨tr, tr₁, tr₂, h, h₁, h₂, (C142_steps _ _ _ [3] [5] (by simp) (by simp) tr tr₁ tr₂ h h₁ h₂ before).1,
    C141_repeat _ dirs _ _ _ tr tr h h before⟩

end Verif.Props
