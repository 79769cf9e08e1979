import Verif.Props.Pixels
import Verif.Props.TilesDemo
import Verif.Props.SwissTilesDemo

/-!
# The hypotheses of C175 can be met
-/

namespace Verif.Props

open Verif MapTileRenderer MapTileCoord Dwd Colors
open Verif.Spec.Grib2 (Msg encode)

attribute [local irreducible] mainEffect

/-- A server that publishes the same field for the hours 3 and 5: the temperature, wind and cloud tiles of the two hours are
the same in all pixels. -/
example (service : Swiss.Service) (cal : Swiss.Calendar) (dirs : Text → Bool) (before : Tree) :
    ∃ (m : Libm) (tr : List Write) (t : MapTileCoord),
    mainEffect ⟨m, constWorld weatherMsg, service, cal, dirs, ⟨2025, 8, 5⟩, ⟨2025, 8, 5⟩, fun _ => true⟩ "icon-eu".toList [] []
      tr .done ∧
    ∀ v ∈ [LayerType.temp2m, .wind10m, .cloudPrecip], ∃ d d' : Drawable,
      before.write tr (tilePath (outputPath ⟨.iconEu, ⟨2025, 8, 5⟩, "21".toList⟩ 3 v) t) = some (.picture d) ∧
      before.write tr (tilePath (outputPath ⟨.iconEu, ⟨2025, 8, 5⟩, "21".toList⟩ 5 v) t) = some (.picture d') ∧
      d.width = 256 ∧ d.height = 256 ∧ ∀ i j, i < 256 → j < 256 → d.pixel j i = d'.pixel j i := by
  obtain ⟨m, _, hm⟩ := exists_both
  have hn : Newest (fun _ => true) .iconEu ⟨2025, 8, 5⟩ "21".toList := by
    refine ⟨by decide +kernel, ?_, ?_⟩
    · intro r hr
      obtain ⟨url, hu, -⟩ := C52_download (run := ⟨.iconEu, ⟨2025, 8, 5⟩, "21".toList⟩) (.inr rfl) r
      exact ⟨url, hu, rfl⟩
    · have : ∀ n ∈ runNames, ¬ valueOf "21".toList < valueOf n := by decide +kernel
      exact fun n hn h => absurd h (this n hn)
  have hp : ∀ r, Publishes (constWorld weatherMsg) ⟨.iconEu, ⟨2025, 8, 5⟩, "21".toList⟩ r weatherMsg :=
    constWorld_publishes weatherMsg_ok trivial (.inr rfl)
  have ha : ∀ r, AreaPublished (constWorld weatherMsg) ⟨.iconEu, ⟨2025, 8, 5⟩, "21".toList⟩ demoArea 2 2 r := fun r =>
    ⟨weatherMsg, hp r, weatherMsg_area, fun _ _ => weatherMsg_codes⟩
  obtain ⟨tr, h⟩ := (C105_main ⟨m, constWorld weatherMsg, service, cal, dirs, ⟨2025, 8, 5⟩, ⟨2025, 8, 5⟩, fun _ => true⟩ hm
    [] [] .iconEu (.inr rfl) "21".toList hn demoArea demoArea_valid 2 2 (fun _ _ _ _ _ r _ => ha r) fun _ k _ _ => ha _).1
  have hcor : Corners weatherMsg ⟨.fin 43, .fin 5⟩ ⟨.fin 45, .fin 7⟩ 2 2 := (fieldMsg_points _ _ _).template
  obtain ⟨t, -, ht, -⟩ := C122_place m hm 43 5 45 7 44 6 (by norm_num) (by norm_num) (by norm_num) (by norm_num)
    (by norm_num) (by norm_num) (by norm_num) (by norm_num) FcModel.iconEu.zoomRange 5 (by decide) (by decide) (by norm_num)
  refine ⟨m, tr, t, h, fun v hv => ?_⟩
  have call : ∀ v (n : Nat), (⟨n, []⟩ : RunStep) ∈ FcModel.iconEu.forecastSteps → DwdCall m v
      ⟨m, constWorld weatherMsg, service, cal, dirs, ⟨2025, 8, 5⟩, ⟨2025, 8, 5⟩, fun _ => true⟩
      ⟨.iconEu, ⟨2025, 8, 5⟩, "21".toList⟩ ⟨n, []⟩ tr := fun v n hs =>
    ⟨rfl, .inr rfl, rfl, hn, hs, [], [], .inl rfl, .inl rfl, h⟩
  have h3 : (⟨3, []⟩ : RunStep) ∈ FcModel.iconEu.forecastSteps := by decide +kernel
  have h5 : (⟨5, []⟩ : RunStep) ∈ FcModel.iconEu.forecastSteps := by decide +kernel
  simp only [List.mem_cons, List.not_mem_nil, or_false] at hv
  rcases hv with rfl | rfl | rfl
  · obtain ⟨colour, main, -⟩ := C175_temperature
    obtain ⟨point, -, main⟩ := main m ⟨.fin 43, .fin 5⟩ ⟨.fin 45, .fin 7⟩ 2 2
    obtain ⟨d, f1, w1, w2, w3⟩ := main _ _ _ _ (call _ 3 h3) weatherMsg (hp _) weatherMsg_field hcor before t ht
    obtain ⟨d', f2, _, _, w4⟩ := main _ _ _ _ (call _ 5 h5) weatherMsg (hp _) weatherMsg_field hcor before t ht
    exact ⟨d, d', f1, f2, w1, w2, fun i j hi hj => by rw [w3 i j hi hj, w4 i j hi hj]⟩
  · obtain ⟨colour, main, -⟩ := C175_wind
    obtain ⟨point, -, main⟩ := main m ⟨.fin 43, .fin 5⟩ ⟨.fin 45, .fin 7⟩ 2 2
    obtain ⟨d, f1, w1, w2, w3⟩ := main _ _ _ _ (call _ 3 h3) weatherMsg weatherMsg (hp _) (hp _) weatherMsg_field
      weatherMsg_field hcor hcor before t ht
    obtain ⟨d', f2, _, _, w4⟩ := main _ _ _ _ (call _ 5 h5) weatherMsg weatherMsg (hp _) (hp _) weatherMsg_field
      weatherMsg_field hcor hcor before t ht
    exact ⟨d, d', f1, f2, w1, w2, fun i j hi hj => by rw [w3 i j hi hj, w4 i j hi hj]⟩
  · obtain ⟨main, -⟩ := C175_cloud_precip
    obtain ⟨points, colour, -, main⟩ := main m ⟨.fin 43, .fin 5⟩ ⟨.fin 45, .fin 7⟩ 2 2
    obtain ⟨d, f1, w1, w2, w3⟩ := main _ _ _ _ (call _ 3 h3) weatherMsg weatherMsg weatherMsg (hp _) (hp _) (hp _)
      weatherMsg_field weatherMsg_field weatherMsg_field hcor hcor hcor before t ht
    obtain ⟨d', f2, _, _, w4⟩ := main _ _ _ _ (call _ 5 h5) weatherMsg weatherMsg weatherMsg (hp _) (hp _) (hp _)
      weatherMsg_field weatherMsg_field weatherMsg_field hcor hcor hcor before t ht
    exact ⟨d, d', f1, f2, w1, w2, fun i j hi hj => by rw [w3 i j hi hj, w4 i j hi hj]⟩

/-- A run of MeteoSwiss, whose tiles have the colours that C175 gives. -/
example (dirs : Text → Bool) (before : Tree) : ∃ m grid tr run,
    Swiss.renderRun m (swissWorld warmMsg) demoService demoCalendar dirs [] [] grid "vert".toList demoTime tr .done ∧
    ∃ (colour : Fl → Color) (point : MapTileCoord → Nat → Nat → Option Nat) (t : MapTileCoord) (d : Drawable),
      before.write tr (tilePath (outputPath run 1 .temp2m) t) = some (.picture d) ∧
      d.pixel 0 0 = some (shade colour ((point t 0 0).bind (unpacked warmMsg))) := by
  obtain ⟨m, _, hm⟩ := exists_both
  have hk : warmMsg.product.known := trivial
  obtain ⟨grid, tr, hg, ht⟩ := swiss_demo warmMsg_ok hk warmMsg_full hm dirs [] []
  obtain ⟨steps, hs, h1, -⟩ := demo_steps .t2m false
  obtain ⟨run, _, e, -⟩ := bin_of_swiss (v := .temp2m) ht (.inl rfl) (by simp) hs h1 (.inl rfl)
  obtain ⟨t, hn, -⟩ := swiss_place hm (lat0 := 445 / 10) (lon0 := 5) (by norm_num) (by norm_num)
    (by norm_num) (by norm_num)
  rw [← forecastRun_model e] at hn
  obtain ⟨colour, -, main⟩ := C175_temperature
  obtain ⟨point, -, main⟩ := main m latMsg lonMsg 4
  obtain ⟨d, f, _, _, hpx⟩ := main (swissWorld warmMsg) demoService "vert".toList demoTime run 1 tr
    ⟨demoCalendar, dirs, [], [], "hor".toList, grid, steps, _, e, hg, swiss_constants warmMsg_ok hk _, .inl rfl, hs, h1, rfl,
      .inl rfl, ht⟩ warmMsg ⟨steps, _, _, hs, h1, rfl, swiss_delivers warmMsg_ok hk _, rfl⟩ warmMsg_full.toPointField before t hn
  exact ⟨m, grid, tr, run, ht, colour, point, t, d, f, hpx 0 0 (by norm_num) (by norm_num)⟩

end Verif.Props
