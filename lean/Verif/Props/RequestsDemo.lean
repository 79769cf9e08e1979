import Verif.Props.RequestsSwiss
import Verif.Props.AgreeDemo
import Verif.Props.DownloadsDemo

/-!
# The hypotheses of C179 can be met
-/

namespace Verif.Props

open Verif MapTileRenderer Dwd
open Verif.Spec (AccurateRow)
open Verif.Spec.Grib2 (Msg encode)

attribute [local irreducible] mainEffect mainNet mainAsks

/-- A network on which every request is answered as the server means it. -/
def reliable (w : World) : Net := fun url a => a = w.download url

theorem written_event {ev : List Event} {w : Write} (h : w ∈ written ev) : ∃ pre post, ev = pre ++ .write w :: post := by
  obtain ⟨q, hq, e⟩ := List.mem_filterMap.mp h
  cases q with
  | write w' =>
    cases e
    exact List.append_of_mem hq
  | _ => cases e

/-- A call for ICON-EU of which C179 speaks: it succeeds, with 12370 downloads, and writes a file. -/
example (service : Swiss.Service) (cal : Swiss.Calendar) (dirs : Text → Bool) :
    ∃ (m : Libm) (ev : List Event), mainAsks (reliable (constWorld weatherMsg))
      ⟨m, constWorld weatherMsg, service, cal, dirs, ⟨2025, 8, 5⟩, ⟨2025, 8, 5⟩, fun _ => true⟩ (dwdName .iconEu) [] [] ev .done ∧
    (ev.filter fun q => q matches .get _).length = 12370 ∧ ∃ pre post bytes,
      ev = pre ++ .write ⟨binPath ⟨.iconEu, ⟨2025, 8, 5⟩, "21".toList⟩ 3 .temp2m, .bytes bytes⟩ :: post ∧
      getOf ⟨.iconEu, ⟨2025, 8, 5⟩, "21".toList⟩ (.single .t2m 3) ∈ pre := by
  obtain ⟨m, _, hm⟩ := exists_both
  have hn : Newest (fun _ => true) .iconEu ⟨2025, 8, 5⟩ "21".toList := by
    refine ⟨by decide +kernel, ?_, ?_⟩
    · intro r hr
      obtain ⟨url, hu, -⟩ := C52_download (run := ⟨.iconEu, ⟨2025, 8, 5⟩, "21".toList⟩) (.inr rfl) r
      exact ⟨url, hu, rfl⟩
    · have : ∀ n ∈ runNames, ¬ valueOf "21".toList < valueOf n := by decide +kernel
      exact fun n hn h => absurd h (this n hn)
  have hp : ∀ r, Publishes (constWorld weatherMsg) ⟨.iconEu, ⟨2025, 8, 5⟩, "21".toList⟩ r weatherMsg :=
    constWorld_publishes weatherMsg_ok trivial (.inr rfl)
  have ha : ∀ r, AreaPublished (constWorld weatherMsg) ⟨.iconEu, ⟨2025, 8, 5⟩, "21".toList⟩ demoArea 2 2 r := fun r =>
    ⟨weatherMsg, hp r, weatherMsg_area, fun _ _ => weatherMsg_codes⟩
  obtain ⟨tr, h⟩ := (C105_main ⟨m, constWorld weatherMsg, service, cal, dirs, ⟨2025, 8, 5⟩, ⟨2025, 8, 5⟩, fun _ => true⟩ hm
    [] [] .iconEu (.inr rfl) "21".toList hn demoArea demoArea_valid 2 2 (fun _ _ _ _ _ r _ => ha r) fun _ k _ _ => ha _).1
  have h3 : (⟨3, []⟩ : RunStep) ∈ FcModel.iconEu.forecastSteps := by decide +kernel
  obtain ⟨bytes, _, f2, -⟩ := C172_dwd ⟨m, constWorld weatherMsg, service, cal, dirs, ⟨2025, 8, 5⟩, ⟨2025, 8, 5⟩, fun _ => true⟩
    .iconEu (.inr rfl) "21".toList hn [] [] tr h .temp2m (.inl rfl) ⟨3, []⟩ h3 (.inl rfl) (fun _ => weatherMsg) 2 2
    (fun r _ => ⟨hp r, weatherMsg_field⟩) (fun _ => none)
  have ht : ∀ url, ∃ a, reliable (constWorld weatherMsg) url a := fun url => ⟨_, rfl⟩
  obtain ⟨ev, h4, h5⟩ := (C179_writes (reliable (constWorld weatherMsg)) ht _ _ _ _).2 tr .done
    ((C176_reliable _ _ (fun url a => Iff.rfl) _ _ _ _ _).mpr h)
  have hr : Dwd.findLatestRun .iconEu ⟨2025, 8, 5⟩ ⟨2025, 8, 5⟩ (fun _ => true) = .ok ⟨.iconEu, ⟨2025, 8, 5⟩, "21".toList⟩ :=
    C51_newest (.inr rfl) _ _ _ hn
  have hw := written_mem f2
  rw [← h5] at hw
  obtain ⟨pre, post, rfl⟩ := written_event hw
  obtain ⟨run, hr', -, h6⟩ := C179_order _ ht _ _ (.inr rfl) _ _ _ _ _ _ h4
  have hr' := hr'.symm.trans hr
  cases hr'
  exact ⟨m, _, h4, C179_number _ _ _ (.inr rfl) _ h4 _ hr, pre, post, bytes, rfl, h6 (.bin .temp2m) 3 rfl _ rfl⟩

/-- The requests of a call for the temperature at hour 1 with links to a web server. -/
theorem web_requests : swissCall webService ⟨"horizontal_constants_icon-ch1-eps.grib2".toList, [], "https://x/hor".toList⟩
    ⟨"vertical_constants_icon-ch1-eps.grib2".toList, [], "https://x/vert".toList⟩ demoTime ["temp_2m".toList] [1] =
    [.query .assets, .get "https://x/hor".toList, .query .newest, .query (.files .t2m), .get "https://x/b".toList] := by
  decide +kernel

/-- A call for the model of MeteoSwiss of which C179 speaks: it succeeds with five requests. -/
example {f : Msg} (h : f.ok) (hk : f.product.known) (hf : FullField f 4) (m : Libm) (hm : AccurateRow m) (dirs : Text → Bool) :
    ∃ ev, mainAsks (reliable (holeyWorld f fun _ => false))
      ⟨m, holeyWorld f fun _ => false, webService, demoCalendar, dirs, ⟨2025, 8, 5⟩, ⟨2025, 8, 5⟩, fun _ => false⟩
      "icon-ch1".toList ["temp_2m".toList] [1] ev .done ∧
    (requests ev).Perm [.query .assets, .get "https://x/hor".toList, .query .newest, .query (.files .t2m),
      .get "https://x/b".toList] := by
  have hc := swiss_constants h hk "https://x/hor".toList
  have hu : Dwd.isUrl "https://x/hor".toList = true := by decide +kernel
  have hv : Dwd.isUrl "https://x/vert".toList = true := by decide +kernel
  have single : ∀ u, Dwd.isUrl u = true → SingleFile (holeyWorld f fun _ => false) 4 u := fun u hu =>
    ⟨f, _, holey_delivers h hk rfl hu, hf⟩
  have level : ∀ u, Dwd.isUrl u = true → LevelFile (holeyWorld f fun _ => false) 4 u := fun u hu =>
    ⟨_, holey_delivers h hk rfl hu, by simp [swissMsgs], fun k msg h1 _ hm => by rw [swiss_levelMsg h1 hm]; exact hf⟩
  have pub : ∀ t v, VariablePublished (holeyWorld f fun _ => false) webService "https://x/vert".toList t 4 2 v := by
    intro t v
    have h1 := fun x => web_listed single t x
    have h2 := fun x => web_listed level t x
    cases v with
    | cloudPrecip => exact fun x _ => h1 x
    | wind10m => exact fun x _ => h1 x
    | temp2m => exact h1 _
    | verticalCloud => exact ⟨level _ hv, h2 _⟩
    | verticalWind => exact ⟨level _ hv, fun x _ => h2 x⟩
    | weather => trivial
  obtain ⟨tr, ht⟩ := (C104_main ⟨m, holeyWorld f fun _ => false, webService, demoCalendar, dirs, ⟨2025, 8, 5⟩, ⟨2025, 8, 5⟩,
    fun _ => false⟩ hm ["temp_2m".toList] [1] _ rfl
    ⟨"horizontal_constants_icon-ch1-eps.grib2".toList, [], "https://x/hor".toList⟩
    ⟨"vertical_constants_icon-ch1-eps.grib2".toList, [], "https://x/vert".toList⟩ (by decide +kernel) (by decide +kernel)
    latMsg lonMsg 4 ⟨⟨_, holey_delivers h hk rfl hu, rfl, rfl⟩, hc.2, hc.3, hc.4, hc.5⟩ latMsg_full lonMsg_full
    _ rfl _ rfl _ rfl (by constructor <;> decide) rfl rfl fun v _ => ⟨2, pub _ v⟩).1
  obtain ⟨ev, h4, -⟩ := (C179_writes (reliable (holeyWorld f fun _ => false)) (fun url => ⟨_, rfl⟩) _ _ _ _).2 tr .done
    ((C176_reliable _ _ (fun url a => Iff.rfl) _ _ _ _ _).mpr ht)
  refine ⟨ev, h4, ?_⟩
  rw [← web_requests]
  exact (C179_swiss _ _ _ _ _ _ _ _ demoTime rfl (by decide +kernel) (by decide +kernel) rfl
    (show SwissSearch.findLatest demoCalendar.parse ["2025-08-05T06:00:00Z".toList] = .ok demoTime by decide +kernel) ev .done h4).2 rfl

end Verif.Props
