import Verif.Props.ModelFiles
import Verif.Props.Catalogue

/-!
# C189: a later call never goes back to an older run
-/

namespace Verif.Props

open Verif MapTileRenderer
open Verif.Dwd
open Verif.Spec (Searches Item runMarkers NewestRun NotAfter IsRunTime)

/-- The start of a run, in hours since the beginning of 1970. -/
def startHour (date : Date) (name : Text) : Int := date.toDay * 24 + valueOf name

/-- The second environment is met after the first one: the clock, which each call reads once or twice, does not go back, and the
files that were on the server of DWD stay there at least until the end of the day. -/
structure FollowedBy (e e' : Environment) : Prop where
  valid : e.today.Valid ∧ e.now.Valid ∧ e'.today.Valid ∧ e'.now.Valid
  clock : e.today.toDay ≤ e.now.toDay ∧ e.now.toDay ≤ e'.today.toDay ∧ e'.today.toDay ≤ e'.now.toDay
  kept : e'.today = e.today → ∀ url, e.available url = true → e'.available url = true

theorem name_bound {name : Text} (h : name ∈ runNames) : valueOf name ≤ 21 := by
  revert h
  simp only [runNames, List.mem_cons, List.not_mem_nil, or_false]
  rintro (rfl | rfl | rfl | rfl | rfl | rfl | rfl | rfl) <;> decide +kernel

/-- C189 for the search: the run that a later call finds does not start before the one that an earlier call found. -/
theorem C189_search {m : FcModel} (hm : IsDwd m) {e e' : Environment} (ha : FollowedBy e e') {run run' : Run}
    (h : findLatestRun m e.today e.now e.available = .ok run)
    (h' : findLatestRun m e'.today e'.now e'.available = .ok run') :
    startHour run.date run.name ≤ startHour run'.date run'.name := by
  obtain ⟨⟨v1, v2, v3, v4⟩, ⟨c1, c2, c3⟩, hk⟩ := ha
  have y := Date.toDay_yesterday v2
  have y' := Date.toDay_yesterday v4
  have v21 : valueOf "21".toList = 21 := by decide +kernel
  have kept : e'.today = e.today → ∀ name, Complete e.available ⟨m, e.today, name⟩ → Complete e'.available ⟨m, e.today, name⟩ :=
    fun he name hc r hr => (hc r hr).imp fun url hu => ⟨hu.1, hk he url hu.2⟩
  unfold startHour
  rcases C51_cases hm e.available e.today e.now with ⟨n, hn, q⟩ | ⟨hn, q⟩ <;>
    rcases C51_cases hm e'.available e'.today e'.now with ⟨n', hn', q'⟩ | ⟨hn', q'⟩ <;>
    rw [q] at h <;> rw [q'] at h' <;> obtain rfl := Res.ok.inj h <;> obtain rfl := Res.ok.inj h' <;> dsimp only
  · have b := name_bound hn.1
    by_cases q : e.today.toDay = e'.today.toDay
    · have et := Date.toDay_inj v3 v1 q.symm
      have : ¬ valueOf n' < valueOf n := fun hlt => hn'.2.2 n hn.1 hlt (by rw [et]; exact kept et n hn.2.1)
      omega
    · omega
  · have b := name_bound hn.1
    by_cases q : e.today.toDay = e'.today.toDay
    · have et := Date.toDay_inj v3 v1 q.symm
      exact absurd (by rw [et]; exact kept et n hn.2.1) (hn' n hn.1)
    · rw [v21, y']
      omega
  · rw [v21, y]
    omega
  · rw [y, y']
    omega

/-- The files of a call for a model of DWD lie in the directory of the run found. -/
theorem dwd_dir {e : Environment} {model : Text} {m : FcModel}
    (hm : model = "icon-d2".toList ∧ m = FcModel.iconD2 ∨ model = "icon-eu".toList ∧ m = FcModel.iconEu) {run : Run}
    (hr : findLatestRun m e.today e.now e.available = .ok run) {vars : List Text} {filter : List Nat} {tr : List Write} {o : Outcome}
    (h : mainEffect e model vars filter tr o) : ∀ x ∈ tr, runDir run.model.name run.date run.name <+: x.path := by
  have hne : "icon-ch1".toList ≠ "icon-d2".toList ∧ "icon-ch1".toList ≠ "icon-eu".toList ∧
    "icon-d2".toList ≠ "icon-eu".toList := by decide +kernel
  intro x hx
  rcases (C87_main e model vars filter tr).1 o h x hx with ⟨dwd, h3, run', h4, h5⟩ | ⟨h3, _⟩
  · have : dwd = m := by
      rcases hm with ⟨a, rfl⟩ | ⟨a, rfl⟩ <;> rcases h3 with ⟨b, rfl⟩ | ⟨b, rfl⟩
      · rfl
      · exact absurd (a.symm.trans b) hne.2.2
      · exact absurd (b.symm.trans a) hne.2.2
      · rfl
    subst this
    obtain rfl := Res.ok.inj (hr.symm.trans h4)
    obtain ⟨_, _, s, _, _, _, _, out, _, hp⟩ := h5
    rw [hp]
    exact out.in_runDir run s.nr
  · rcases hm with ⟨a, _⟩ | ⟨a, _⟩
    · exact absurd (h3.symm.trans a) hne.1
    · exact absurd (h3.symm.trans a) hne.2.1

/-- C189 for DWD: all files of a call lie in the directory of one run, and the run of a later call does not start before the run of an
earlier one, whatever the options of the two calls are. -/
theorem C189_dwd {e e' : Environment} (ha : FollowedBy e e') {model : Text}
    (hm : model = "icon-d2".toList ∨ model = "icon-eu".toList) : ∃ run run' : Run,
    (∀ vars filter tr o, mainEffect e model vars filter tr o → ∀ x ∈ tr, runDir run.model.name run.date run.name <+: x.path) ∧
    (∀ vars filter tr o, mainEffect e' model vars filter tr o → ∀ x ∈ tr, runDir run'.model.name run'.date run'.name <+: x.path) ∧
    startHour run.date run.name ≤ startHour run'.date run'.name := by
  have key : ∀ m : FcModel, (model = "icon-d2".toList ∧ m = FcModel.iconD2 ∨ model = "icon-eu".toList ∧ m = FcModel.iconEu) →
      ∃ run run' : Run,
    (∀ vars filter tr o, mainEffect e model vars filter tr o → ∀ x ∈ tr, runDir run.model.name run.date run.name <+: x.path) ∧
    (∀ vars filter tr o, mainEffect e' model vars filter tr o → ∀ x ∈ tr, runDir run'.model.name run'.date run'.name <+: x.path) ∧
    startHour run.date run.name ≤ startHour run'.date run'.name := by
    intro m hm
    have hd : IsDwd m := by rcases hm with ⟨-, rfl⟩ | ⟨-, rfl⟩; exacts [.inl rfl, .inr rfl]
    have found : ∀ e : Environment, ∃ run, findLatestRun m e.today e.now e.available = .ok run := by
      intro e
      rcases C51_cases hd e.available e.today e.now with ⟨n, _, q⟩ | ⟨_, q⟩ <;> exact ⟨_, q⟩
    obtain ⟨run, hr⟩ := found e
    obtain ⟨run', hr'⟩ := found e'
    exact ⟨run, run', fun _ _ _ _ h => dwd_dir hm hr h, fun _ _ _ _ h => dwd_dir hm hr' h, C189_search hd ha hr hr'⟩
  rcases hm with hm | hm
  · exact key _ (.inl ⟨hm, rfl⟩)
  · exact key _ (.inr ⟨hm, rfl⟩)

/-- The hypotheses can be met: a call in the evening of 31 August 2025, and one in the morning of 1 September, when there is nothing
complete on the server. -/
example (e : Environment) : FollowedBy { e with today := ⟨2025, 8, 31⟩, now := ⟨2025, 8, 31⟩ }
    { e with today := ⟨2025, 9, 1⟩, now := ⟨2025, 9, 1⟩, available := fun _ => false } :=
  ⟨by dsimp only; decide, by dsimp only; decide, fun h => by cases h⟩

/-- Two calls on the same day, between which files appear. -/
example (e : Environment) (more : Text → Bool) : FollowedBy { e with today := ⟨2025, 8, 31⟩, now := ⟨2025, 8, 31⟩ }
    { e with today := ⟨2025, 8, 31⟩, now := ⟨2025, 8, 31⟩, available := fun u => e.available u || more u } :=
  ⟨by dsimp only; decide, by dsimp only; decide, fun _ u h => by dsimp only at h ⊢; rw [h, Bool.true_or]⟩

/-- The files need to stay: when the files of the day are removed, a later call on the same day goes back. -/
example : ∃ available available' : Text → Bool, findLatestRun .iconD2 ⟨2025, 8, 31⟩ ⟨2025, 8, 31⟩ available =
      .ok ⟨.iconD2, ⟨2025, 8, 31⟩, "21".toList⟩ ∧
    findLatestRun .iconD2 ⟨2025, 8, 31⟩ ⟨2025, 8, 31⟩ available' = .ok ⟨.iconD2, ⟨2025, 8, 30⟩, "21".toList⟩ :=
  ⟨fun _ => true, fun _ => false, by decide +kernel, by decide +kernel⟩

theorem runName_value {t : Instant} {name : Text} (h : RefTime.runName t = .ok name) : valueOf name = t.hour := by
  have v : valueOf "00".toList = 0 ∧ valueOf "03".toList = 3 ∧ valueOf "06".toList = 6 ∧ valueOf "09".toList = 9 ∧
    valueOf "12".toList = 12 ∧ valueOf "15".toList = 15 ∧ valueOf "18".toList = 18 ∧ valueOf "21".toList = 21 := by decide +kernel
  obtain ⟨v0, v1, v2, v3, v4, v5, v6, v7⟩ := v
  unfold RefTime.runName at h
  split at h <;> cases h <;> rename_i e <;> rw [e] <;> assumption

/-- The files of a call for ICON-CH1 lie in the directory of the run of the newest reference time. -/
theorem swiss_dir {e : Environment} {web : Swiss.Web} {catalogue : List Item} {t : Instant} (hs : e.service = web.service)
    (hc : e.calendar = Swiss.chrono) (hw : Searches web catalogue) (hi : ∀ i ∈ catalogue, i.WellFormed)
    (ho : catalogue.Pairwise fun i j => NotAfter i.refTime j.refTime) (hn : NewestRun catalogue t) {vars : List Text}
    {filter : List Nat} {tr : List Write} {o : Outcome} (h : mainEffect e "icon-ch1".toList vars filter tr o) :
    ∀ x ∈ tr, ∃ name, RefTime.runName t = .ok name ∧ runDir "icon-ch1".toList (Date.ofDay t.day) name <+: x.path := by
  have hne : "icon-ch1".toList ≠ "icon-d2".toList ∧ "icon-ch1".toList ≠ "icon-eu".toList := by decide +kernel
  intro x hx
  rcases (C87_main e _ vars filter tr).1 o h x hx with ⟨dwd, h3, -⟩ | ⟨-, _, _, _, _, refTimes, t', _, _, _, _, h5, h6, h7⟩
  · rcases h3 with ⟨a, -⟩ | ⟨a, -⟩
    · exact absurd a hne.1
    · exact absurd a hne.2
  · obtain ⟨texts, q1, q2⟩ := C111_newest web catalogue hw hi ho t hn
    rw [hs] at h5
    obtain rfl := Res.ok.inj (h5.symm.trans q1)
    rw [hc] at h6
    obtain rfl := Res.ok.inj (h6.symm.trans q2)
    obtain ⟨_, _, run, _, b1, _, s, _, _, _, _, out, _, hp⟩ := h7
    rw [hc] at b1
    unfold Swiss.forecastRun at b1
    obtain ⟨name, b2, b3⟩ := Res.bind_eq_ok.mp b1
    obtain rfl := Res.ok.inj b3
    refine ⟨name, b2, ?_⟩
    rw [hp]
    exact out.in_runDir ⟨.iconCh1, Date.ofDay t'.day, name⟩ s.nr

/-- C189 for MeteoSwiss: if the service lists the forecasts from old to new and, at the time of the later call, lists a run that is
not older than the one an earlier call has rendered, then the run of the later call does not start before that of the earlier one. -/
theorem C189_swiss {e e' : Environment} {web web' : Swiss.Web} {catalogue catalogue' : List Item} {t t' : Instant}
    (hs : e.service = web.service) (hs' : e'.service = web'.service) (hc : e.calendar = Swiss.chrono) (hc' : e'.calendar = Swiss.chrono)
    (hw : Searches web catalogue) (hw' : Searches web' catalogue') (hi : ∀ i ∈ catalogue, i.WellFormed)
    (hi' : ∀ i ∈ catalogue', i.WellFormed) (ho : catalogue.Pairwise fun i j => NotAfter i.refTime j.refTime)
    (ho' : catalogue'.Pairwise fun i j => NotAfter i.refTime j.refTime) (hn : NewestRun catalogue t) (hn' : NewestRun catalogue' t')
    (hk : ∃ i ∈ runMarkers catalogue', NotAfter t i.refTime) : ∃ date name date' name',
    (∀ vars filter tr o, mainEffect e "icon-ch1".toList vars filter tr o → ∀ x ∈ tr, runDir "icon-ch1".toList date name <+: x.path) ∧
    (∀ vars filter tr o, mainEffect e' "icon-ch1".toList vars filter tr o → ∀ x ∈ tr, runDir "icon-ch1".toList date' name' <+: x.path) ∧
    startHour date name ≤ startHour date' name' := by
  have run : ∀ {catalogue : List Item} {t : Instant}, (∀ i ∈ catalogue, i.WellFormed) → NewestRun catalogue t → IsRunTime t := by
    rintro catalogue t hi ⟨⟨i, h1, rfl⟩, -⟩
    exact (hi i (List.mem_of_mem_filter h1)).runTime
  have named : ∀ {t : Instant}, IsRunTime t → ∃ name, RefTime.runName t = .ok name := by
    intro t ht
    have hh : t.hour ∈ [0, 3, 6, 9, 12, 15, 18, 21] := by
      obtain ⟨h1, h2, -⟩ := ht
      unfold Instant.hour
      simp only [List.mem_cons, List.not_mem_nil, or_false]
      omega
    unfold RefTime.runName
    simp only [List.mem_cons, List.not_mem_nil, or_false] at hh
    rcases hh with h | h | h | h | h | h | h | h <;> rw [h] <;> exact ⟨_, rfl⟩
  have r := run hi hn
  have r' := run hi' hn'
  obtain ⟨name, q⟩ := named r
  obtain ⟨name', q'⟩ := named r'
  refine ⟨Date.ofDay t.day, name, Date.ofDay t'.day, name', fun vars filter tr o h x hx => ?_, fun vars filter tr o h x hx => ?_, ?_⟩
  · obtain ⟨n, e1, e2⟩ := swiss_dir hs hc hw hi ho hn h x hx
    obtain rfl := Res.ok.inj (q.symm.trans e1)
    exact e2
  · obtain ⟨n, e1, e2⟩ := swiss_dir hs' hc' hw' hi' ho' hn' h x hx
    obtain rfl := Res.ok.inj (q'.symm.trans e1)
    exact e2
  · obtain ⟨i, i1, i2⟩ := hk
    have i3 := hn'.2 i i1
    unfold startHour
    rw [Date.toDay_ofDay, Date.toDay_ofDay, runName_value q, runName_value q']
    obtain ⟨a1, a2, a3⟩ := r
    obtain ⟨b1, b2, b3⟩ := r'
    unfold NotAfter at i2 i3
    unfold Instant.hour
    omega

/-- The hypotheses can be met: a call while the run of noon is published, and one when the first file of the run of 15 UTC is there. -/
example (m : Libm) (dirs : Text → Bool) (f : Spec.Grib2.Msg) (h : f.ok) (hk : f.product.known) : ∃ date name date' name',
    (∀ vars filter tr o, mainEffect (webEnv m f demoCatalogue dirs) "icon-ch1".toList vars filter tr o → ∀ x ∈ tr,
      runDir "icon-ch1".toList date name <+: x.path) ∧
    (∀ vars filter tr o, mainEffect (webEnv m f partCatalogue dirs) "icon-ch1".toList vars filter tr o → ∀ x ∈ tr,
      runDir "icon-ch1".toList date' name' <+: x.path) ∧
    startHour date name ≤ startHour date' name' := by
  have p := demo_meets h hk m dirs
  have p' := part_meets h hk m dirs
  have k : ∃ i ∈ runMarkers partCatalogue, NotAfter augustNoon i.refTime := by
    obtain ⟨i, i1, i2⟩ := p'.newest.1
    exact ⟨i, i1, by rw [i2]; exact .inr ⟨rfl, .inl (by decide)⟩⟩
  generalize webEnv m f demoCatalogue dirs = E at p ⊢
  generalize webEnv m f partCatalogue dirs = E' at p' ⊢
  exact C189_swiss p.service p'.service p.calendar p'.calendar p.searches p'.searches p.wellFormed p'.wellFormed p.ordered
    p'.ordered p.newest p'.newest k

end Verif.Props
