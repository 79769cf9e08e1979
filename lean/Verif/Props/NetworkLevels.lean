import Verif.Props.Network
import Verif.Props.SwissDownloads
import Verif.Props.SwissDemo

/-!
# C176: where it fails, and examples
-/

namespace Verif.Props

open Verif MapTileRenderer
open Verif.Spec (Filled AccurateRow exists_accurateRow)
open Verif.Spec.Grib2 (Msg encode)

theorem levels_some {w : World} {grid : UnstructuredGrid} {lat lon : Msg} {n : Nat} (hg : Placed grid lat lon n)
    {url : Text} {msgs : List Msg} (hd : Delivers w url msgs) (h32 : 32 ≤ msgs.length) (hf : ∀ msg ∈ msgs, FullField msg n)
    (missing : UInt8) (f : Fl → UInt8) :
    ∃ gs, w.readMultiUnstructured url missing f grid (some Swiss.levels) = .ok gs ∧ gs.length = min msgs.length 80 - 31 ∧
      ∀ g ∈ gs, Filled g 1851 847 := by
  unfold World.readMultiUnstructured
  rw [hd.read (by rintro rfl; simp at h32), Res.bind_ok]
  have each : ∀ k : Fin (min msgs.length 80 - 31), ∃ G,
      Grib2.convertUnstructured missing f grid (msgs[31 + (k : Nat)]'(by omega)).doc = .ok G ∧ OnChart G :=
    fun k => full_convert hg (hf _ (List.getElem_mem _)) _ f
  choose G hG using each
  refine ⟨List.ofFn G, ?_, by simp, fun g hgm => ?_⟩
  · show Grib2.convertMulti _ _ _ _ (some (31, 79)) = _
    rw [C14_result]
    refine ⟨by rw [List.length_ofFn, List.length_map], fun k g hk => ?_⟩
    rw [List.getElem?_ofFn] at hk
    split at hk
    · next hlt =>
      cases hk
      refine ⟨_, ?_, (hG ⟨k, hlt⟩).1⟩
      rw [List.getElem?_map, List.getElem?_eq_getElem (by omega)]
      rfl
    · cases hk
  · obtain ⟨k, rfl⟩ := List.mem_ofFn.mp hgm
    exact (hG k).2.filled

/-- A call for the vertical clouds of one step, with files of the same number of levels. -/
theorem clouds_written (e : Environment) {assets : List Swiss.Asset} {hor vert : Swiss.Asset}
    (ha : e.service.assets = .ok assets) (hh : Swiss.findAsset assets Swiss.horConstId = some hor)
    (hv : Swiss.findAsset assets Swiss.vertConstId = some vert) {refTimes : List Text} (hr : e.service.refTimes = .ok refTimes)
    {t : Instant} (ht : SwissSearch.findLatest e.calendar.parse refTimes = .ok t) {run : Run}
    (hrun : Swiss.forecastRun e.calendar t = .ok run) {grid : UnstructuredGrid}
    (hg : Swiss.readHorConst e.world hor.href = .ok grid) {lat lon : Msg} {n : Nat} (hp : Placed grid lat lon n)
    {steps : List RunStep} (hs : Swiss.steps e.service t .clc false = .ok steps) {st : RunStep} (hst : st ∈ steps)
    {heights covers : List Msg} (dh : Delivers e.world vert.href heights) (dc : Delivers e.world st.url covers)
    (fh : ∀ msg ∈ heights, FullField msg n) (fc : ∀ msg ∈ covers, FullField msg n) (h32 : 32 ≤ heights.length)
    (hl : covers.length = heights.length) :
    ∃ tr bytes, mainEffect e "icon-ch1".toList ["vertical_cloud".toList] [st.nr] tr .done ∧
      (⟨binPath run st.nr .verticalClouds, .bytes bytes⟩ : Write) ∈ tr ∧
      bytes.length = 1851 * 847 * ((min heights.length 80 - 31) * 2) := by
  obtain ⟨H, hH, lH, oH⟩ := levels_some hp dh h32 fh 0 hhlByte
  obtain ⟨C, hC, lC, oC⟩ := levels_some hp dc (by omega) fc 0 clcByte
  rw [hl] at lC
  have numbered := steps_numbered hs
  obtain ⟨bytes, b1, b2, -⟩ := C42_clouds (l := ⟨H, C⟩) (by omega) lH lC oH oC
  have good : Swiss.readVerticalCloud e.world grid H steps st = .ok ⟨H, C⟩ := by
    unfold Swiss.readVerticalCloud
    rw [getStep_of_mem numbered hst rfl]
    show (e.world.readMultiUnstructured st.url 0 clcByte grid (some Swiss.levels) >>= _) = _
    rw [hC, Res.bind_ok]
    unfold VerticalCloudLayer.new
    rw [lH, lC]
    have : min heights.length 80 - 31 ≠ 0 := by omega
    simp [this]
  have only : ∀ x ∈ steps, Chosen [st.nr] x → x = st := by
    intro x hx hc
    rcases hc with hc | hc
    · cases hc
    · have e1 := getStep_of_mem numbered hx rfl
      rw [List.mem_singleton] at hc
      rw [hc, getStep_of_mem numbered hst rfl] at e1
      exact (Res.ok.inj e1).symm
  obtain ⟨tr, some⟩ := (C53_succeeds_iff e.libm run e.dirs steps [st.nr] (fun step => do
      let l ← Swiss.readVerticalCloud e.world grid H steps step
      .ok (.verticalCloud l))).1.mpr fun x hx hc => by
    rw [only x hx hc]
    exact ⟨.verticalCloud ⟨H, C⟩, by rw [good, Res.bind_ok], bytes, b1⟩
  have e0 : Swiss.renderVerticalCloud e.libm e.world e.service e.calendar e.dirs [st.nr] grid t H =
      renderSteps e.libm run e.dirs steps [st.nr] (fun step => do
        let l ← Swiss.readVerticalCloud e.world grid H steps step
        .ok (.verticalCloud l)) := by
    unfold Swiss.renderVerticalCloud Effect.need
    rw [hrun, hs]
  have e1 : mainEffect e "icon-ch1".toList ["vertical_cloud".toList] [st.nr] =
      Seq [Effect.when false (Swiss.renderCloudPrecip e.libm e.world e.service e.calendar e.dirs [st.nr] grid t),
        Effect.when false (Swiss.renderWind e.libm e.world e.service e.calendar e.dirs [st.nr] grid t),
        Effect.when false (Swiss.renderTemp e.libm e.world e.service e.calendar e.dirs [st.nr] grid t),
        Seq [Swiss.renderVerticalCloud e.libm e.world e.service e.calendar e.dirs [st.nr] grid t H,
          Effect.when false (Swiss.renderVerticalWind e.libm e.world e.service e.calendar e.dirs [st.nr] grid t H)]] := by
    unfold mainEffect
    rw [if_pos rfl]
    unfold Swiss.renderLatest
    rw [ha, hr]
    simp only [Effect.need, unwrap_ok.mpr hh, unwrap_ok.mpr hv, hg, ht]
    unfold Swiss.renderRun
    rw [show variableChosen ["vertical_cloud".toList] .cloudPrecip = false by decide,
      show variableChosen ["vertical_cloud".toList] .wind10m = false by decide,
      show variableChosen ["vertical_cloud".toList] .temp2m = false by decide,
      show variableChosen ["vertical_cloud".toList] .verticalCloud = true by decide,
      show variableChosen ["vertical_cloud".toList] .verticalWind = false by decide,
      show (["vertical_cloud".toList].isEmpty || ["vertical_cloud".toList].contains LayerType.verticalCloud.name ||
        ["vertical_cloud".toList].contains LayerType.verticalWind.name) = true by decide,
      show Swiss.readHhl e.world grid vert.href = .ok H from hH]
    rfl
  have h : mainEffect e "icon-ch1".toList ["vertical_cloud".toList] [st.nr]
      ([] ++ ([] ++ ([] ++ ((tr ++ ([] ++ [])) ++ [])))) .done := by
    rw [e1, e0]
    exact .cons ⟨rfl, rfl⟩ (.cons ⟨rfl, rfl⟩ (.cons ⟨rfl, rfl⟩ (.cons (.cons some (.cons ⟨rfl, rfl⟩ .nil)) .nil)))
  refine ⟨_, bytes, h, (C87_main e _ _ _ _).2 h _ ?_, b2⟩
  refine .inr ⟨rfl, assets, hor, vert, grid, refTimes, t, ha, hh, hv, hg, hr, ht, .verticalCloud, .inr (by decide), run, steps,
    hrun, hs, st, hst, .inr (by simp), .verticalCloud ⟨H, C⟩, ?_, .bin .verticalClouds, .verticalCloud b1, rfl⟩
  simp only [swissLayers]
  rw [show Swiss.readHhl e.world grid vert.href = .ok H from hH, Res.bind_ok, hs, Res.bind_ok, good, Res.bind_ok]

/-- The part of a file with its first `k` messages. -/
theorem delivers_take {w : World} {url : Text} {msgs : List Msg} (h : Delivers w url msgs) (k : Nat) {w' : World}
    (hs : w'.stream url = .ok ((msgs.take k).flatMap encode)) : Delivers w' url (msgs.take k) :=
  ⟨fun msg hm => h.ok msg (List.mem_of_mem_take hm), [], by rw [hs, List.append_nil], by decide +kernel⟩

/-- C176 is false for the vertical charts of MeteoSwiss: if the transfers of the file of heights and of the file of cloud covers
both break off after the same number of levels (at least one, and not all), the call ends successfully and writes a file
that is none of those of a reliable network: it has fewer levels. -/
theorem C176_counterexample_levels (e : Environment) (assets : List Swiss.Asset) (hor vert : Swiss.Asset)
    (ha : e.service.assets = .ok assets)
    (hh : Swiss.findAsset assets "horizontal_constants_icon-ch1-eps.grib2".toList = some hor)
    (hv : Swiss.findAsset assets "vertical_constants_icon-ch1-eps.grib2".toList = some vert) (refTimes : List Text)
    (hr : e.service.refTimes = .ok refTimes) (t : Instant) (ht : SwissSearch.findLatest e.calendar.parse refTimes = .ok t)
    (run : Run) (hrun : Swiss.forecastRun e.calendar t = .ok run) (lat lon : Msg) (n : Nat)
    (hk : Constants e.world hor.href lat lon n) (fl : FullField lat n) (fn : FullField lon n) (steps : List RunStep)
    (hs : Swiss.steps e.service t .clc false = .ok steps) (st : RunStep) (hst : st ∈ steps) (heights covers : List Msg)
    (dh : Delivers e.world vert.href heights) (dc : Delivers e.world st.url covers)
    (fh : ∀ msg ∈ heights, FullField msg n) (fc : ∀ msg ∈ covers, FullField msg n) (h80 : 80 ≤ heights.length)
    (hl : covers.length = heights.length)
    (urls : Dwd.isUrl vert.href = true ∧ Dwd.isUrl st.url = true ∧ ¬ ".bz2".toList <:+ vert.href ∧ ¬ ".bz2".toList <:+ st.url)
    (distinct : vert.href ≠ st.url ∧ vert.href ≠ hor.href ∧ st.url ≠ hor.href) (k : Nat) (h32 : 32 ≤ k) (hk80 : k < 80) :
    ∃ net, Faulty net e.world ∧ ∃ tr x, mainNet net e "icon-ch1".toList ["vertical_cloud".toList] [st.nr] tr .done ∧ x ∈ tr ∧
      ¬ MainExpected e "icon-ch1".toList ["vertical_cloud".toList] [st.nr] x.path x.content := by
  obtain ⟨u1, u2, z1, z2⟩ := urls
  obtain ⟨d1, d2, d3⟩ := distinct
  obtain ⟨grid, hg⟩ := hor_read hk fl fn
  have hp := placed hk hg
  let down : Text → Option (List UInt8) := fun url =>
    if url = vert.href then some ((heights.take k).flatMap encode)
    else if url = st.url then some ((covers.take k).flatMap encode) else e.world.download url
  let w' : World := ⟨down, e.world.file, e.world.bunzip⟩
  let e' : Environment := { e with world := w' }
  have part : ∀ {url : Text} {msgs : List Msg}, Delivers e.world url msgs → Dwd.isUrl url = true → ¬ ".bz2".toList <:+ url →
      Answer e.world url (some ((msgs.take k).flatMap encode)) := by
    intro url msgs hd hu hz
    obtain ⟨rest, h1, -⟩ := hd.there
    rw [stream_eq e.world hu] at h1
    cases hb : e.world.download url with
    | none => rw [hb] at h1; cases h1
    | some body =>
      rw [hb] at h1
      have h1 := Res.ok.inj h1
      refine .cut hb ?_
      rw [h1]
      unfold unpackBody
      rw [if_neg hz]
      exact ⟨(msgs.drop k).flatMap encode ++ rest, by rw [← List.append_assoc, ← List.flatMap_append, List.take_append_drop]⟩
  have stream : ∀ {url : Text} {body : List UInt8}, Dwd.isUrl url = true → ¬ ".bz2".toList <:+ url → down url = some body →
      w'.stream url = .ok body := by
    intro url body hu hz hb
    rw [stream_eq w' hu]
    show (do let b ← Res.okOr (down url); _) = _
    rw [hb, Res.okOr_some, Res.bind_ok]
    unfold unpackBody
    rw [if_neg hz]
  have hg' : Swiss.readHorConst e'.world hor.href = .ok grid := by
    rw [← hg]
    have : w'.stream hor.href = e.world.stream hor.href := by
      unfold World.stream
      show (if _ then (do let body ← Res.okOr (down hor.href); _) else _) = _
      rw [show down hor.href = e.world.download hor.href by
        simp only [down]; rw [if_neg d2.symm, if_neg d3.symm]]
    unfold Swiss.readHorConst World.readMulti
    show (do let docs ← (do let s ← w'.stream hor.href; _); _) = _
    rw [this]
  have l1 : (heights.take k).length = k := by rw [List.length_take]; omega
  have l2 : (covers.take k).length = k := by rw [List.length_take]; omega
  obtain ⟨tr, bytes, t1, t2, t3⟩ := clouds_written e' (run := run) ha hh hv hr ht hrun hg' hp hs hst
    (delivers_take dh k (stream u1 z1 (if_pos rfl)))
    (delivers_take dc k (stream u2 z2 ((if_neg d1.symm).trans (if_pos rfl))))
    (fun msg hm => fh msg (List.mem_of_mem_take hm)) (fun msg hm => fc msg (List.mem_of_mem_take hm))
    (by omega) (by omega)
  obtain ⟨tr0, bytes0, s1, s2, s3⟩ := clouds_written e (run := run) ha hh hv hr ht hrun hg hp hs hst dh dc fh fc (by omega) hl
  refine ⟨fun url a => a = down url, ⟨fun url => ⟨_, rfl⟩, ?_⟩, tr, _, ?_, t2, fun hx => ?_⟩
  · rintro url a rfl
    by_cases h1 : url = vert.href
    · subst h1
      simp only [down, if_true]
      exact part dh u1 z1
    · by_cases h2 : url = st.url
      · subst h2
        simp only [down, if_neg h1, if_true]
        exact part dc u2 z2
      · simp only [down, if_neg h1, if_neg h2]
        exact .file
  · exact (C176_reliable (fun url a => a = down url) e' (fun _ _ => Iff.rfl) _ _ _ tr .done).mpr t1
  · have := mainExpected_functional hx
      (c' := .bytes bytes0) ((C87_main e _ _ _ tr0).1 .done s1 ⟨binPath run st.nr .verticalClouds, .bytes bytes0⟩ s2)
    cases this
    rw [l1] at t3
    rw [t3] at s3
    omega

/-! ## Examples -/

/-- A network on which requests may fail, but what is delivered is whole. -/
def losing (w : World) : Net := fun url a => a = none ∨ a = w.download url

theorem losing_faulty (w : World) : Faulty (losing w) w ∧ Whole (losing w) w := by
  refine ⟨⟨fun url => ⟨none, .inl rfl⟩, ?_⟩, ?_⟩
  · rintro url a (rfl | rfl)
    · exact .nothing
    · exact .file
  · rintro url part (h | h) hd
    · cases h
    · exact absurd h hd

/-- The hypotheses of C176 can be met by a network that delivers anything that is considered. -/
theorem answer_faulty (w : World) : Faulty (fun url a => Answer w url a) w := ⟨fun _ => ⟨none, .nothing⟩, fun _ _ h => h⟩

/-- Something else than a message: the page of an overloaded server. -/
example (w : World) (url : Text) (hz : ¬ ".bz2".toList <:+ url) : Answer w url (some "<html>".toUTF8.toList) := by
  refine .other ?_
  unfold unpackBody
  rw [if_neg hz]
  decide +kernel

/-- The hypotheses of `C176_retry_partial` can be met: a call on a network without answers, which ends somehow, before one that
renders everything. -/
example (service : Swiss.Service) (cal : Swiss.Calendar) (dirs : Text → Bool) (t : Tree) :
    ∃ (e : Environment) (tr last : List Write), (∃ o, mainNet (fun _ a => a = none) e "icon-eu".toList [] [] tr o) ∧
      mainNet (fun url a => a = e.world.download url) e "icon-eu".toList [] [] last .done ∧
      (t.write [tr].flatten).write last = t.write last := by
  obtain ⟨e, -, -, -, ⟨last, hl⟩, -⟩ := disk_demo service cal dirs
  have n1 : Faulty (fun _ a => a = none) e.world := ⟨fun _ => ⟨none, rfl⟩, by rintro url _ rfl; exact .nothing⟩
  have n2 : Faulty (fun url a => a = e.world.download url) e.world := ⟨fun _ => ⟨_, rfl⟩, by rintro url _ rfl; exact .file⟩
  have ne : "icon-eu".toList ≠ "icon-ch1".toList := by decide
  obtain ⟨⟨tr, o, ht⟩, -⟩ := C176_faulty_partial _ e "icon-eu".toList [] [] n1 fun h => absurd h ne
  have hl' := (C176_reliable (fun url a => a = e.world.download url) e (fun _ _ => Iff.rfl) "icon-eu".toList [] [] last
    .done).mpr hl
  refine ⟨e, tr, last, ⟨o, ht⟩, hl', C176_retry_partial e "icon-eu".toList [] [] [tr] ?_ _ n2 (fun h => absurd h ne) last hl' t⟩
  intro tr' h
  rw [List.mem_singleton] at h
  subst h
  exact ⟨_, n1, fun h => absurd h ne, o, ht⟩

/-- The answers of a demonstration server with links. -/
def linkService : Swiss.Service :=
  ⟨.ok [⟨"vertical_constants_icon-ch1-eps.grib2".toList, [], "https://vert".toList⟩,
    ⟨"horizontal_constants_icon-ch1-eps.grib2".toList, [], "https://hor".toList⟩], .ok ["2025-08-05T06:00:00Z".toList],
    fun _ _ => .ok [⟨[], "P0DT01H00M00S".toList, ["https://b".toList]⟩, ⟨[], "P0DT00H00M00S".toList, ["https://a".toList]⟩]⟩

/-- The hypotheses of `C176_counterexample_levels` can be met. -/
example {f : Msg} (h : f.ok) (hk : f.product.known) (hf : FullField f 4) (m : Libm) (dirs : Text → Bool) :
    ∃ net e, Faulty net e.world ∧ ∃ tr x, mainNet net e "icon-ch1".toList ["vertical_cloud".toList] [1] tr .done ∧ x ∈ tr ∧
      ¬ MainExpected e "icon-ch1".toList ["vertical_cloud".toList] [1] x.path x.content := by
  have ff : ∀ msg ∈ swissMsgs f, FullField msg 4 := by
    intro msg hm
    simp only [swissMsgs, List.mem_append, List.mem_cons, List.mem_replicate] at hm
    rcases hm with ⟨-, rfl⟩ | rfl | rfl | ⟨-, rfl⟩
    · exact hf
    · exact lonMsg_full
    · exact latMsg_full
    · exact hf
  obtain ⟨net, h1, h2⟩ := C176_counterexample_levels
    ⟨m, swissWorld f, linkService, demoCalendar, dirs, ⟨2025, 8, 5⟩, ⟨2025, 8, 5⟩, fun _ => false⟩ _ _ _ rfl rfl rfl _ rfl
    demoTime rfl _ rfl latMsg lonMsg 4 (swiss_constants h hk _) latMsg_full lonMsg_full
    [⟨0, "https://a".toList⟩, ⟨1, "https://b".toList⟩] (show Swiss.steps linkService demoTime .clc false = _ by decide +kernel)
    ⟨1, "https://b".toList⟩ (by simp) _ _ (swiss_delivers h hk _) (swiss_delivers h hk _) ff ff
    (by simp [swissMsgs]) rfl (by decide) (by decide) 40 (by decide) (by decide)
  exact ⟨net, _, h1, h2⟩

end Verif.Props
