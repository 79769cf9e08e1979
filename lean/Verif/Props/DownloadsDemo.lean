import Verif.Props.SwissDownloads
import Verif.Props.SwissNeedsDemo

/-!
# Servers with missing and incomplete files: the hypotheses of C130 and C131 can be met
-/

namespace Verif.Props

open Verif MapTileRenderer Dwd Spec
open Verif.Spec.Grib2 (Msg encode)

/-- C130: the program, called for a model of DWD, ends with success or an error, whichever run is found, if the files
needed of that run are complete or cannot be had; with success exactly if they are complete. -/
theorem C130_main (e : Environment) (hm : AccurateRow e.libm) (vars : List Text) (filter : List Nat) (model : FcModel)
    (hd : IsDwd model) (a : Area) (ha : a.Valid) (ni nj : Nat)
    (h : ∀ run, findLatestRun model e.today e.now e.available = .ok run →
      (∀ v, ChosenVar vars v → ∀ s ∈ run.model.forecastSteps, Chosen filter s → ∀ r, Uses run.model v s.nr r →
        PublishedOrLost e.world run a ni nj r) ∧
      (ChosenVar vars .verticalCloud ∨ ChosenVar vars .verticalWind → ∀ k, run.model.verticalLevels.1 ≤ k →
        k ≤ run.model.verticalLevels.2 → PublishedOrLost e.world run a ni nj (.hhl k))) :
    (∃ tr o, mainEffect e (dwdName model) vars filter tr o) ∧
    ∀ tr o, mainEffect e (dwdName model) vars filter tr o → o ≠ .panicked ∧
      (o = .done ↔ ∀ run, findLatestRun model e.today e.now e.available = .ok run →
        (∀ v, ChosenVar vars v → ∀ s ∈ run.model.forecastSteps, Chosen filter s → ∀ r, Uses run.model v s.nr r →
          AreaPublished e.world run a ni nj r) ∧
        (ChosenVar vars .verticalCloud ∨ ChosenVar vars .verticalWind → ∀ k, run.model.verticalLevels.1 ≤ k →
          k ≤ run.model.verticalLevels.2 → AreaPublished e.world run a ni nj (.hhl k))) := by
  have heq : mainEffect e (dwdName model) vars filter =
      Dwd.renderLatest e.libm e.world e.dirs e.today e.now e.available model vars filter := by
    rcases hd with rfl | rfl
    · show mainEffect e "icon-d2".toList vars filter = _
      unfold mainEffect
      rw [if_neg (by decide), if_pos rfl]
    · show mainEffect e "icon-eu".toList vars filter = _
      unfold mainEffect
      rw [if_neg (by decide), if_neg (by decide), if_pos rfl]
  obtain ⟨run, hrun, hd'⟩ : ∃ run, findLatestRun model e.today e.now e.available = .ok run ∧ IsDwd run.model := by
    rcases C51_cases hd e.available e.today e.now with ⟨name, -, h⟩ | ⟨-, h⟩
    · exact ⟨_, h, hd⟩
    · exact ⟨_, h, .inl rfl⟩
  have := C130_run e.libm hm e.world e.dirs vars filter run hd' a ha ni nj (h run hrun).1 (h run hrun).2
  rw [heq]
  unfold Dwd.renderLatest Effect.need
  rw [hrun]
  refine ⟨this.1, fun tr o ht => ⟨(this.2 tr o ht).1, (this.2 tr o ht).2.trans ⟨?_, fun h => h run rfl⟩⟩⟩
  rintro h run' ⟨⟩
  exact h

/-- A server that delivers only the first bytes of each file, or nothing. -/
def shakyWorld (msg : Msg) (upTo : Text → Option Nat) : World :=
  ⟨fun u => (upTo u).map (encode msg).take, fun _ => none, id⟩

theorem shaky_offers (upTo : Text → Option Nat) {run : Run} (hd : IsDwd run.model) (r : Req) :
    PublishedOrLost (shakyWorld weatherMsg upTo) run demoArea 2 2 r := by
  obtain ⟨url, hu, -, hz⟩ := C52_download hd r
  cases hk : upTo url with
  | none => exact .inr ⟨url, hu, .missing (by show (upTo url).map _ = none; rw [hk]; rfl)⟩
  | some n =>
    have hdl : (shakyWorld weatherMsg upTo).download url = some ((encode weatherMsg).take n) := by
      show (upTo url).map _ = _
      rw [hk]
      rfl
    by_cases hn : n < (encode weatherMsg).length
    · exact .inr ⟨url, hu, .cut _ weatherMsg n weatherMsg_ok (.inl trivial) hn hdl (by rw [if_pos hz]; rfl)⟩
    · refine .inl ⟨weatherMsg, ⟨weatherMsg_ok, .inl trivial, url, _, [], hu, hdl, ?_⟩, weatherMsg_area,
        fun _ _ => weatherMsg_codes⟩
      show (encode weatherMsg).take n = _
      rw [List.take_of_length_le (by omega), List.append_nil]

/-- The hypotheses of C130 can be met: whichever files are missing or cut off anywhere, the program does not panic. -/
example (m : Libm) (hm : AccurateRow m) (dirs : Text → Bool) (vars : List Text) (filter : List Nat) (model : FcModel)
    (hd : IsDwd model) (service : Swiss.Service) (cal : Swiss.Calendar) (today : Date) (available : Text → Bool)
    (upTo : Text → Option Nat) (tr : List Write) (o : Outcome)
    (h : mainEffect ⟨m, shakyWorld weatherMsg upTo, service, cal, dirs, today, today, available⟩ (dwdName model) vars filter
      tr o) : o ≠ .panicked := by
  refine ((C130_main _ hm vars filter model hd demoArea demoArea_valid 2 2 (fun run hrun => ?_)).2 tr o h).1
  have hd' : IsDwd run.model := by
    rcases C51_cases hd available today today with ⟨name, -, h⟩ | ⟨-, h⟩
    · cases h.symm.trans hrun; exact hd
    · cases h.symm.trans hrun; exact .inl rfl
  exact ⟨fun _ _ _ _ _ r _ => shaky_offers upTo hd' r, fun _ _ _ _ => shaky_offers upTo hd' _⟩

/-! ## MeteoSwiss -/

/-- A service with links to a web server. -/
def webService : Swiss.Service :=
  ⟨.ok [⟨"vertical_constants_icon-ch1-eps.grib2".toList, [], "https://x/vert".toList⟩,
    ⟨"horizontal_constants_icon-ch1-eps.grib2".toList, [], "https://x/hor".toList⟩],
    .ok ["2025-08-05T06:00:00Z".toList],
    fun _ _ => .ok [⟨[], "P0DT01H00M00S".toList, ["https://x/b".toList]⟩, ⟨[], "P0DT00H00M00S".toList, ["https://x/a".toList]⟩]⟩

/-- The demonstration server, with some files missing. -/
def holeyWorld (f : Msg) (gone : Text → Bool) : World :=
  ⟨fun u => if gone u then none else some ((swissMsgs f).flatMap encode), fun _ => none, id⟩

theorem holey_stream {f : Msg} {gone : Text → Bool} {u : Text} (h : gone u = false) (hu : Dwd.isUrl u = true) :
    (holeyWorld f gone).stream u = (swissWorld f).stream u := by
  unfold World.stream
  rw [if_pos hu, if_pos hu]
  show (Res.okOr (if gone u then none else some ((swissMsgs f).flatMap encode)) >>= _) = _
  rw [h]
  rfl

theorem holey_delivers {f : Msg} (h : f.ok) (hk : f.product.known) {gone : Text → Bool} {u : Text} (hg : gone u = false)
    (hu : Dwd.isUrl u = true) : Delivers (holeyWorld f gone) u (swissMsgs f) := by
  have := swiss_delivers h hk u
  refine ⟨this.ok, ?_⟩
  obtain ⟨rest, h1, h2⟩ := this.there
  exact ⟨rest, by rw [holey_stream hg hu]; exact h1, h2⟩

theorem holey_lost {f : Msg} {gone : Text → Bool} {u : Text} (hg : gone u = true) : Lost (holeyWorld f gone) u :=
  .missing (by show (if gone u then none else _) = _; rw [hg]; rfl)

theorem holey_single {f : Msg} (h : f.ok) (hk : f.product.known) (hf : FullField f 4) (gone : Text → Bool) {u : Text}
    (hu : Dwd.isUrl u = true) : Offered (holeyWorld f gone) (SingleFile (holeyWorld f gone) 4) u := by
  cases hg : gone u with
  | true => exact .inr ⟨hu, holey_lost hg⟩
  | false => exact .inl ⟨f, _, holey_delivers h hk hg hu, hf⟩

theorem holey_level {f : Msg} (h : f.ok) (hk : f.product.known) (hf : FullField f 4) (gone : Text → Bool) {u : Text}
    (hu : Dwd.isUrl u = true) : Offered (holeyWorld f gone) (LevelFile (holeyWorld f gone) 4) u := by
  cases hg : gone u with
  | true => exact .inr ⟨hu, holey_lost hg⟩
  | false =>
    refine .inl ⟨_, holey_delivers h hk hg hu, by simp [swissMsgs], fun k msg h1 _ hm => ?_⟩
    rw [swiss_levelMsg h1 hm]
    exact hf

theorem web_listed {file : Text → Prop} (h : ∀ url, Dwd.isUrl url = true → file url) (t : Instant) (x : Swiss.Variable) :
    Listed webService t 2 file x := by
  refine ⟨_, rfl, rfl, fun g hg => ?_⟩
  simp only [List.mem_cons, List.not_mem_nil, or_false] at hg
  rcases hg with rfl | rfl
  · refine ⟨⟨⟨0, 1⟩, by decide +kernel, by decide⟩, by simp, fun u hu => h _ ?_⟩
    rw [List.mem_singleton.mp hu]
    decide +kernel
  · refine ⟨⟨⟨0, 0⟩, by decide +kernel, by decide⟩, by simp, fun u hu => h _ ?_⟩
    rw [List.mem_singleton.mp hu]
    decide +kernel

/-- The hypotheses of C131 can be met: whichever files are missing, the program does not panic. -/
example {f : Msg} (h : f.ok) (hk : f.product.known) (hf : FullField f 4) (m : Libm) (hm : AccurateRow m)
    (dirs : Text → Bool) (vars : List Text) (filter : List Nat) (gone : Text → Bool) (tr : List Write) (o : Outcome)
    (ht : mainEffect ⟨m, holeyWorld f gone, webService, demoCalendar, dirs, ⟨2025, 8, 5⟩, ⟨2025, 8, 5⟩, fun _ => false⟩
      "icon-ch1".toList vars filter tr o) : o ≠ .panicked := by
  refine (C131_main_partial _ hm vars filter (.inr ⟨_, ⟨"horizontal_constants_icon-ch1-eps.grib2".toList, [],
    "https://x/hor".toList⟩, ⟨"vertical_constants_icon-ch1-eps.grib2".toList, [], "https://x/vert".toList⟩, rfl,
    by decide +kernel, by decide +kernel, ?_⟩)).2 tr o ht
  have hu : Dwd.isUrl "https://x/hor".toList = true := by decide +kernel
  cases hg : gone "https://x/hor".toList with
  | true => exact .inl ⟨hu, holey_lost hg⟩
  | false =>
    have hc := swiss_constants h hk "https://x/hor".toList
    refine .inr ⟨latMsg, lonMsg, 4, ⟨⟨_, holey_delivers h hk hg hu, rfl, rfl⟩, hc.2, hc.3, hc.4, hc.5⟩, latMsg_full,
      lonMsg_full, .inr ⟨_, "2025-08-05T06:00:00Z".toList, ⟨demoTime, 0⟩, rfl, rfl, rfl, ?_, rfl, rfl, fun v _ => ⟨2, ?_⟩⟩⟩
    · constructor <;> decide
    · have s1 := fun x => web_listed (file := Offered (holeyWorld f gone) (SingleFile (holeyWorld f gone) 4))
        (fun u hu => holey_single h hk hf gone hu) (OffsetTime.toUtc ⟨demoTime, 0⟩) x
      have s2 := fun x => web_listed (file := Offered (holeyWorld f gone) (LevelFile (holeyWorld f gone) 4))
        (fun u hu => holey_level h hk hf gone hu) (OffsetTime.toUtc ⟨demoTime, 0⟩) x
      have s3 : Offered (holeyWorld f gone) (LevelFile (holeyWorld f gone) 4) "https://x/vert".toList :=
        holey_level h hk hf gone (by decide +kernel)
      cases v with
      | cloudPrecip => exact fun x _ => .inr (s1 x)
      | wind10m => exact fun x _ => .inr (s1 x)
      | temp2m => exact .inr (s1 _)
      | verticalCloud => exact ⟨s3, .inr (s2 _)⟩
      | verticalWind => exact ⟨s3, fun x _ => .inr (s2 x)⟩
      | weather => trivial

/-- A server whose file "b" breaks off after ten messages. -/
def cutWorld (f : Msg) : World :=
  ⟨fun _ => none, fun u => some (if u = "b".toList then (List.replicate 10 f).flatMap encode
    else (swissMsgs f).flatMap encode), id⟩

theorem cut_delivers {f : Msg} (h : f.ok) (hk : f.product.known) {u : Text} (hu : Dwd.isUrl u = false)
    (hb : u ≠ "b".toList) : Delivers (cutWorld f) u (swissMsgs f) := by
  refine ⟨(swiss_delivers h hk u).ok, [], ?_, by decide +kernel⟩
  unfold World.stream
  rw [if_neg (by simp [hu]), List.append_nil]
  show Res.okOr (some (if u = "b".toList then _ else _)) = _
  rw [if_neg hb]
  rfl

theorem cut_short {f : Msg} (h : f.ok) (hk : f.product.known) : Delivers (cutWorld f) "b".toList (List.replicate 10 f) := by
  refine ⟨fun msg hm => ?_, [], ?_, by decide +kernel⟩
  · rw [List.eq_of_mem_replicate hm]
    exact ⟨h, .inl hk⟩
  · unfold World.stream
    rw [if_neg (by decide +kernel), List.append_nil]
    rfl

/-- The hypotheses of the last counterexample of C131 can be met: the program panics. -/
example {f : Msg} (h : f.ok) (hk : f.product.known) (hf : FullField f 4) (m : Libm) (dirs : Text → Bool) :
    ∃ grid tr, Swiss.renderRun m (cutWorld f) demoService demoCalendar dirs ["vertical_cloud".toList] [1] grid
      "vert".toList demoTime tr .panicked := by
  have hc := swiss_constants h hk "hor".toList
  have hk' : Constants (cutWorld f) "hor".toList latMsg lonMsg 4 :=
    ⟨⟨_, cut_delivers h hk (by decide +kernel) (by decide +kernel), rfl, rfl⟩, hc.2, hc.3, hc.4, hc.5⟩
  obtain ⟨grid, hg⟩ := hor_read hk' latMsg_full lonMsg_full
  have hs : Swiss.steps demoService demoTime .clc false = .ok [⟨0, "a".toList⟩, ⟨1, "b".toList⟩] := by decide +kernel
  refine ⟨grid, (C131_counterexample_levels m (cutWorld f) demoService demoCalendar dirs "hor".toList "vert".toList demoTime
    latMsg lonMsg 4 hk' grid hg ⟨_, rfl⟩ ⟨_, cut_delivers h hk (by decide +kernel) (by decide +kernel), by simp [swissMsgs],
      fun k msg h1 _ hm => by rw [swiss_levelMsg h1 hm]; exact hf⟩ _ hs ⟨1, "b".toList⟩ (by simp)
    (List.replicate 10 f) (cut_short h hk) (by simp) (by simp) fun msg hm => by
      rw [List.eq_of_mem_replicate hm]; exact hf).1⟩

end Verif.Props
