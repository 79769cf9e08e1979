import Verif.Props.Agree
import Verif.Props.Order
import Verif.Props.TilesDemo

/-!
# The hypotheses of C178 can be met
-/

namespace Verif.Props

open Verif MapTileRenderer MapTileCoord Dwd Colors
open Verif.Spec.Grib2 (Msg encode)

attribute [local irreducible] mainEffect

/-- A file that was not there before was written. -/
theorem written_mem {ws : List Write} {p : Text} {c : Content} :
    Tree.write (fun _ => none) ws p = some c → (⟨p, c⟩ : Write) ∈ ws := by
  induction ws using List.reverseRecOn with
  | nil => intro h; cases h
  | append_singleton ws w ih =>
    intro h
    rw [Tree.write_append] at h
    have e : (Tree.write (fun _ => none) ws).write [w] p = if p = w.path then some w.content else Tree.write (fun _ => none) ws p := rfl
    rw [e] at h
    by_cases hp : p = w.path
    · rw [if_pos hp] at h
      refine List.mem_append_right _ ?_
      cases h
      rw [hp]
      exact List.mem_singleton.mpr rfl
    · rw [if_neg hp] at h
      exact List.mem_append_left _ (ih h)

/-- A call of which C178 speaks: it succeeds and writes a temperature file and a tile of the temperature chart. -/
example (service : Swiss.Service) (cal : Swiss.Calendar) (dirs : Text → Bool) :
    ∃ (m : Libm) (tr : List Write) (t : MapTileCoord) (d : Drawable) (bytes : List UInt8),
    mainEffect ⟨m, constWorld weatherMsg, service, cal, dirs, ⟨2025, 8, 5⟩, ⟨2025, 8, 5⟩, fun _ => true⟩ "icon-eu".toList [] []
      tr .done ∧
    (⟨tilePath (outputPath ⟨.iconEu, ⟨2025, 8, 5⟩, "21".toList⟩ 3 .temp2m) t, .picture d⟩ : Write) ∈ tr ∧
    (⟨binPath ⟨.iconEu, ⟨2025, 8, 5⟩, "21".toList⟩ 3 .temp2m, .bytes bytes⟩ : Write) ∈ tr ∧
    TempsAgree m tr ⟨.iconEu, ⟨2025, 8, 5⟩, "21".toList⟩ 3 bytes := by
  obtain ⟨m, _, hm⟩ := exists_both
  have hn : Newest (fun _ => true) .iconEu ⟨2025, 8, 5⟩ "21".toList := by
    refine ⟨by decide +kernel, ?_, ?_⟩
    · intro r hr
      obtain ⟨url, hu, -⟩ := C52_download (run := ⟨.iconEu, ⟨2025, 8, 5⟩, "21".toList⟩) (.inr rfl) r
      exact ⟨url, hu, rfl⟩
    · have : ∀ n ∈ runNames, ¬ valueOf "21".toList < valueOf n := by decide +kernel
      exact fun n hn h => absurd h (this n hn)
  have hp : ∀ r, Publishes (constWorld weatherMsg) ⟨.iconEu, ⟨2025, 8, 5⟩, "21".toList⟩ r weatherMsg :=
    constWorld_publishes weatherMsg_ok trivial (.inr rfl)
  have ha : ∀ r, AreaPublished (constWorld weatherMsg) ⟨.iconEu, ⟨2025, 8, 5⟩, "21".toList⟩ demoArea 2 2 r := fun r =>
    ⟨weatherMsg, hp r, weatherMsg_area, fun _ _ => weatherMsg_codes⟩
  obtain ⟨tr, h⟩ := (C105_main ⟨m, constWorld weatherMsg, service, cal, dirs, ⟨2025, 8, 5⟩, ⟨2025, 8, 5⟩, fun _ => true⟩ hm
    [] [] .iconEu (.inr rfl) "21".toList hn demoArea demoArea_valid 2 2 (fun _ _ _ _ _ r _ => ha r) fun _ k _ _ => ha _).1
  have hcor : Corners weatherMsg ⟨.fin 43, .fin 5⟩ ⟨.fin 45, .fin 7⟩ 2 2 := (fieldMsg_points _ _ _).template
  obtain ⟨t, -, ht, -⟩ := C122_place m hm 43 5 45 7 44 6 (by norm_num) (by norm_num) (by norm_num) (by norm_num)
    (by norm_num) (by norm_num) (by norm_num) (by norm_num) FcModel.iconEu.zoomRange 5 (by decide) (by decide) (by norm_num)
  have h3 : (⟨3, []⟩ : RunStep) ∈ FcModel.iconEu.forecastSteps := by decide +kernel
  obtain ⟨colour, main, -⟩ := C175_temperature
  obtain ⟨point, -, main⟩ := main m ⟨.fin 43, .fin 5⟩ ⟨.fin 45, .fin 7⟩ 2 2
  obtain ⟨d, f1, -⟩ := main _ _ _ _
    (⟨rfl, .inr rfl, rfl, hn, h3, [], [], .inl rfl, .inl rfl, h⟩ : DwdCall m .temp2m
      ⟨m, constWorld weatherMsg, service, cal, dirs, ⟨2025, 8, 5⟩, ⟨2025, 8, 5⟩, fun _ => true⟩
      ⟨.iconEu, ⟨2025, 8, 5⟩, "21".toList⟩ ⟨3, []⟩ tr) weatherMsg (hp _) weatherMsg_field hcor (fun _ => none) t ht
  obtain ⟨bytes, _, f2, -⟩ := C172_dwd ⟨m, constWorld weatherMsg, service, cal, dirs, ⟨2025, 8, 5⟩, ⟨2025, 8, 5⟩, fun _ => true⟩
    .iconEu (.inr rfl) "21".toList hn [] [] tr h .temp2m (.inl rfl) ⟨3, []⟩ h3 (.inl rfl) (fun _ => weatherMsg) 2 2
    (fun r _ => ⟨hp r, weatherMsg_field⟩) (fun _ => none)
  exact ⟨m, tr, t, d, bytes, h, written_mem f1, written_mem f2,
    (C178_agree _ _ _ _ _ _ h ⟨.iconEu, ⟨2025, 8, 5⟩, "21".toList⟩ (by decide) 3 bytes).1 (written_mem f2)⟩

end Verif.Props
