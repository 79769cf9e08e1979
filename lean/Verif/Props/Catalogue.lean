import Verif.Props.Request
import Verif.Props.SwissDemo

/-!
# C113 - C115: the program and the catalogue of forecast files
-/

namespace Verif.Props

open Verif MapTileRenderer
open Verif.Spec (Searches Item filesOf runMarkers NewestRun published ch1 IsRunTime NotAfter memberMatches AccurateRow)
open Verif.Spec.Grib2 (Msg)

/-- The program meets a web service with this catalogue, whose newest run started at `t`, and with files of constants
for `n` points. -/
structure Meets (e : Environment) (web : Swiss.Web) (catalogue : List Item) (hor vert : Text) (lat lon : Msg) (n : Nat)
    (t : Instant) : Prop where
  service : e.service = web.service
  calendar : e.calendar = Swiss.chrono
  searches : Searches web catalogue
  wellFormed : ∀ i ∈ catalogue, i.WellFormed
  ordered : catalogue.Pairwise fun i j => NotAfter i.refTime j.refTime
  newest : NewestRun catalogue t
  usual : UsualTime t
  assets : ∃ assets h v, web.get
      "https://data.geo.admin.ch/api/stac/v1/collections/ch.meteoschweiz.ogd-forecasting-icon-ch1/assets".toList = .ok assets ∧
    assets.find? (fun a => a.id == "horizontal_constants_icon-ch1-eps.grib2".toList) = some h ∧ h.href = hor ∧
    assets.find? (fun a => a.id == "vertical_constants_icon-ch1-eps.grib2".toList) = some v ∧ v.href = vert
  constants : Constants e.world hor lat lon n

theorem Meets.runTime {e : Environment} {web : Swiss.Web} {catalogue : List Item} {hor vert : Text} {lat lon : Msg} {n : Nat}
    {t : Instant} (h : Meets e web catalogue hor vert lat lon n t) : IsRunTime t := by
  obtain ⟨⟨i, hi, rfl⟩, -⟩ := h.newest
  exact (h.wellFormed i (List.mem_of_mem_filter hi)).runTime

/-! ## C113: success -/

/-- The variables that are needed, and whether their files have levels. -/
def needs : LayerType → List (Swiss.Variable × Bool)
  | .cloudPrecip => [(.clct, false), (.totPrec, false), (.ceiling, false)]
  | .wind10m => [(.u10m, false), (.v10m, false), (.vmax10m, false)]
  | .temp2m => [(.t2m, false)]
  | .verticalCloud => [(.clc, true)]
  | .verticalWind => [(.u, true), (.v, true)]
  | .weather => []

theorem listed_of_catalogue {web : Swiss.Web} {catalogue : List Item} (hw : Searches web catalogue)
    (hc : ∀ i ∈ catalogue, i.WellFormed) {t : Instant} (h : UsualTime t) (hr : IsRunTime t) {x : Swiss.Variable}
    {count : Nat} {file : Text → Prop} (hl : (filesOf catalogue x t).length = count)
    (hf : ∀ i ∈ filesOf catalogue x t, file i.href) : Listed web.service t count file x := by
  refine ⟨_, C111_files web catalogue hw x t h hr, by rw [List.length_map, hl], fun f hm => ?_⟩
  obtain ⟨i, hi, rfl⟩ := List.mem_map.mp hm
  have hwf := hc i (List.mem_of_mem_filter hi)
  obtain ⟨z, hz, e⟩ := horizon_read hwf
  refine ⟨⟨z, hz, by rw [e]; exact hwf.hours⟩, by simp, fun url hu => ?_⟩
  rw [List.mem_singleton.mp hu]
  exact hf i hi

/-- C113: the program succeeds if, for every selected variable, the newest run has equally many files of the fields that
it is made of, and they are well-formed. -/
theorem C113_success (e : Environment) (hm : AccurateRow e.libm) (web : Swiss.Web) (catalogue : List Item)
    (hor vert : Text) (lat lon : Msg) (n : Nat) (t : Instant) (h : Meets e web catalogue hor vert lat lon n t)
    (fl : FullField lat n) (fn : FullField lon n) (vars : List Text) (filter : List Nat)
    (hp : ∀ v, ChosenVar vars v → ∃ count, ∀ p ∈ needs v, (filesOf catalogue p.1 t).length = count ∧
      ∀ i ∈ filesOf catalogue p.1 t, if p.2 then LevelFile e.world n i.href else SingleFile e.world n i.href)
    (hv : ChosenVar vars .verticalCloud ∨ ChosenVar vars .verticalWind → LevelFile e.world n vert) :
    (∃ tr, mainEffect e "icon-ch1".toList vars filter tr .done) ∧
    ∀ tr o, mainEffect e "icon-ch1".toList vars filter tr o → o = .done := by
  obtain ⟨assets, ah, av, a1, a2, rfl, a4, rfl⟩ := h.assets
  have hr := h.runTime
  obtain ⟨texts, t1, t2⟩ := C111_newest web catalogue h.searches h.wellFormed h.ordered t h.newest
  have hlast : ∃ text time, texts.getLast? = some text ∧ Rfc3339.parse text = .ok ⟨time, 0⟩ ∧
      (⟨time, 0⟩ : OffsetTime).toUtc = t ∧ IsRunTime time := by
    rw [C111_runs web catalogue h.searches h.wellFormed] at t1
    cases t1
    unfold SwissSearch.findLatest at t2
    rw [List.getLast?_map] at t2 ⊢
    cases hl : (runMarkers catalogue).getLast? with
    | none => rw [hl] at t2; cases t2
    | some i =>
      have hwf := h.wellFormed i (List.mem_of_mem_filter (List.mem_of_getLast? hl))
      rw [hl] at t2
      have e1 := (refText_read hwf).symm.trans t2
      refine ⟨_, _, rfl, hwf.refText, ?_, hwf.runTime⟩
      rw [← Res.ok.inj e1]
      obtain ⟨h1, -, -⟩ := hwf.runTime
      generalize i.refTime = r at h1
      obtain ⟨d, s, m⟩ := r
      simp only at h1
      simp only [OffsetTime.toUtc, Instant.mk.injEq, and_true]
      omega
  obtain ⟨text, time, l1, l2, l3, l4⟩ := hlast
  have L : ∀ {x : Swiss.Variable} {count : Nat} {file : Text → Prop}, (filesOf catalogue x t).length = count →
      (∀ i ∈ filesOf catalogue x t, file i.href) → Listed e.service t count file x := by
    intro x count file c1 c2
    rw [h.service]
    exact listed_of_catalogue h.searches h.wellFormed h.usual hr c1 c2
  refine C104_main e hm vars filter assets (by rw [h.service]; exact a1) ah av a2 a4 lat lon n h.constants fl fn texts
    (by rw [h.service]; exact t1) text l1 ⟨time, 0⟩ (by rw [h.calendar]; exact l2)
    ⟨l4.1, by rw [l4.2.2]; decide⟩ rfl l4.2.1 fun v hc => ?_
  obtain ⟨count, hcount⟩ := hp v hc
  refine ⟨count, ?_⟩
  rw [l3]
  cases v with
  | cloudPrecip =>
    intro x hx
    have hm' : (x, false) ∈ needs .cloudPrecip := by
      simp only [List.mem_cons, List.not_mem_nil, or_false] at hx
      rcases hx with rfl | rfl | rfl <;> simp [needs]
    exact L (hcount _ hm').1 fun i hi => by simpa using (hcount _ hm').2 i hi
  | wind10m =>
    intro x hx
    have hm' : (x, false) ∈ needs .wind10m := by
      simp only [List.mem_cons, List.not_mem_nil, or_false] at hx
      rcases hx with rfl | rfl | rfl <;> simp [needs]
    exact L (hcount _ hm').1 fun i hi => by simpa using (hcount _ hm').2 i hi
  | temp2m =>
    have := hcount (.t2m, false) (by simp [needs])
    exact L this.1 fun i hi => by simpa using this.2 i hi
  | verticalCloud =>
    have := hcount (.clc, true) (by simp [needs])
    exact ⟨hv (.inl hc), L this.1 fun i hi => by simpa using this.2 i hi⟩
  | verticalWind =>
    refine ⟨hv (.inr hc), fun x hx => ?_⟩
    have hm' : (x, true) ∈ needs .verticalWind := by
      simp only [List.mem_cons, List.not_mem_nil, or_false] at hx
      rcases hx with rfl | rfl <;> simp [needs]
    exact L (hcount _ hm').1 fun i hi => by simpa using (hcount _ hm').2 i hi
  | weather => trivial

/-! ## C114: what is written -/

/-- The run with a reference time. -/
def runAt (t : Instant) : Run := ⟨.iconCh1, Date.ofDay t.day, decPad 2 (t.sec / 3600)⟩

/-- What the program does is the rendering of the newest run. -/
theorem main_run {e : Environment} {web : Swiss.Web} {catalogue : List Item} {hor vert : Text} {lat lon : Msg} {n : Nat}
    {t : Instant} (h : Meets e web catalogue hor vert lat lon n t) {vars : List Text} {filter : List Nat} {tr : List Write}
    (hd : mainEffect e "icon-ch1".toList vars filter tr .done) :
    ∃ grid, Swiss.readHorConst e.world hor = .ok grid ∧
      Swiss.renderRun e.libm e.world web.service Swiss.chrono e.dirs vars filter grid vert t tr .done := by
  obtain ⟨assets, ah, av, a1, a2, rfl, a4, rfl⟩ := h.assets
  obtain ⟨texts, t1, t2⟩ := C111_newest web catalogue h.searches h.wellFormed h.ordered t h.newest
  unfold mainEffect at hd
  rw [if_pos rfl] at hd
  unfold Swiss.renderLatest at hd
  rw [h.service, h.calendar] at hd
  obtain ⟨assets', b1, hd⟩ := done_need hd
  obtain rfl : assets = assets' := Res.ok.inj (a1.symm.trans b1)
  obtain ⟨ah', b2, hd⟩ := done_need hd
  obtain rfl : ah = ah' := Option.some.inj (a2.symm.trans (unwrap_ok.mp b2))
  obtain ⟨grid, b3, hd⟩ := done_need hd
  obtain ⟨av', b4, hd⟩ := done_need hd
  obtain rfl : av = av' := Option.some.inj (a4.symm.trans (unwrap_ok.mp b4))
  obtain ⟨texts', b5, hd⟩ := done_need hd
  rw [t1] at b5
  cases b5
  obtain ⟨t', b6, hd⟩ := done_need hd
  rw [t2] at b6
  cases b6
  exact ⟨grid, b3, hd⟩

/-- C114: if a call for ICON-CH1 succeeds with temperature and an hour selected and the newest run has the temperature
files of the hours 0, 1, ..., then the meteobin file of this run and hour gives in each cell the temperature that the
file of this hour has for the nearest point. -/
theorem C114_temperature (e : Environment) (web : Swiss.Web) (catalogue : List Item) (hor vert : Text) (lat lon : Msg)
    (n : Nat) (t : Instant) (h : Meets e web catalogue hor vert lat lon n t) (vars : List Text) (filter : List Nat)
    (tr : List Write) (hd : mainEffect e "icon-ch1".toList vars filter tr .done) (hv : ChosenVar vars .temp2m)
    (count : Nat) (hh : ((filesOf catalogue .t2m t).map (·.hours)).Perm (List.range count)) (i : Item)
    (hi : i ∈ filesOf catalogue .t2m t) (hc : filter = [] ∨ i.hours ∈ filter) (msg : Msg) (more : List Msg)
    (hdel : Delivers e.world i.href (msg :: more)) (hf : PointField msg n) (before : Tree) :
    ∃ bytes, before.write tr (binPath (runAt t) i.hours .temp2m) = some (.bytes bytes) ∧ bytes.length = 1851 * 847 ∧
      ∀ x y, x < 1851 → y < 847 → ∃ (o : Option Nat) (b : UInt8), Spec.Shows (position lat lon) n x y o ∧
        bytes[y * 1851 + x]? = some b ∧ (o.bind (physical msg) = none → b = 255) ∧
        ∀ k, o.bind (physical msg) = some k → -6399 / 100 ≤ k - 27315 / 100 → k - 27315 / 100 ≤ 6299 / 100 →
          b ≠ 255 ∧ |((b.toNat : Rat) - 128) / 2 - (k - 27315 / 100)| ≤ 1 / 4 + 2 / 1000 := by
  obtain ⟨grid, hg, hrun⟩ := main_run h hd
  obtain ⟨steps, hs, hmem⟩ := C112_steps web catalogue h.searches h.wellFormed .t2m t h.usual h.runTime count hh false
  obtain ⟨run, bytes, e1, r⟩ := C98_temperature e.libm e.world web.service Swiss.chrono e.dirs vars filter hor vert grid t tr
    hrun hg lat lon n h.constants hv steps hs ⟨i.hours, i.href⟩ ((hmem _ _).mpr ⟨nofun, i, hi, rfl, rfl⟩) hc msg more
    hdel hf before
  rw [C109_run t h.runTime] at e1
  cases e1
  exact ⟨bytes, r⟩

/-- C114: likewise for precipitation: the file of an hour gives the difference of the totals of this hour and of the hour
before. -/
theorem C114_precipitation (e : Environment) (web : Swiss.Web) (catalogue : List Item) (hor vert : Text) (lat lon : Msg)
    (n : Nat) (t : Instant) (h : Meets e web catalogue hor vert lat lon n t) (vars : List Text) (filter : List Nat)
    (tr : List Write) (hd : mainEffect e "icon-ch1".toList vars filter tr .done) (hv : ChosenVar vars .cloudPrecip)
    (count count' : Nat) (hh : ((filesOf catalogue .clct t).map (·.hours)).Perm (List.range count))
    (hh' : ((filesOf catalogue .totPrec t).map (·.hours)).Perm (List.range count'))
    (i j0 j1 : Item) (hi : i ∈ filesOf catalogue .clct t) (hj0 : j0 ∈ filesOf catalogue .totPrec t)
    (hj1 : j1 ∈ filesOf catalogue .totPrec t) (e0 : j0.hours + 1 = i.hours) (e1 : j1.hours = i.hours)
    (hc : filter = [] ∨ i.hours ∈ filter) (clct total0 total1 : Msg) (more more0 more1 : List Msg)
    (hdel : Delivers e.world i.href (clct :: more)) (hf : PointField clct n)
    (hdel0 : Delivers e.world j0.href (total0 :: more0)) (hf0 : PointField total0 n)
    (hdel1 : Delivers e.world j1.href (total1 :: more1)) (hf1 : PointField total1 n) (before : Tree) :
    ∃ bytes, before.write tr (binPath (runAt t) i.hours .precip) = some (.bytes bytes) ∧ bytes.length = 1851 * 847 ∧
      ∀ x y, x < 1851 → y < 847 → ∃ o : Option Nat, Spec.Shows (position lat lon) n x y o ∧
        ∀ t0 t1, o.bind (physical total0) = some t0 → o.bind (physical total1) = some t1 →
        0 ≤ t0 → t1 ≤ 1000 → t0 ≤ t1 → t1 - t0 ≤ 126 → ∃ b : UInt8, bytes[y * 1851 + x]? = some b ∧ b ≠ 255 ∧
          (201 / 1000 ≤ t1 - t0 → t1 - t0 ≤ 499 / 1000 → b = 1) ∧
          (t1 - t0 ≤ 199 / 1000 ∨ 501 / 1000 ≤ t1 - t0 → |(b.toNat : Rat) / 2 - (t1 - t0)| ≤ 1 / 4 + 2 / 1000) := by
  obtain ⟨grid, hg, hrun⟩ := main_run h hd
  obtain ⟨steps, hs, hmem⟩ := C112_steps web catalogue h.searches h.wellFormed .clct t h.usual h.runTime count hh true
  obtain ⟨totals, hs', hmem'⟩ :=
    C112_steps web catalogue h.searches h.wellFormed .totPrec t h.usual h.runTime count' hh' false
  obtain ⟨run, bytes, er, r⟩ := C99_precipitation e.libm e.world web.service Swiss.chrono e.dirs vars filter hor vert grid t tr
    hrun hg lat lon n h.constants hv steps totals hs hs' ⟨i.hours, i.href⟩ ⟨j0.hours, j0.href⟩ ⟨j1.hours, j1.href⟩
    ((hmem _ _).mpr ⟨fun _ => by omega, i, hi, rfl, rfl⟩) ((hmem' _ _).mpr ⟨nofun, j0, hj0, rfl, rfl⟩)
    ((hmem' _ _).mpr ⟨nofun, j1, hj1, rfl, rfl⟩) e0 e1 hc clct total0 total1 more more0 more1 hdel hf hdel0 hf0 hdel1 hf1
    before
  rw [C109_run t h.runTime] at er
  cases er
  exact ⟨bytes, r⟩

/-- C114: likewise for vertical wind. -/
theorem C114_vertical_wind (e : Environment) (web : Swiss.Web) (catalogue : List Item) (hor vert : Text) (lat lon : Msg)
    (n : Nat) (t : Instant) (h : Meets e web catalogue hor vert lat lon n t) (vars : List Text) (filter : List Nat)
    (tr : List Write) (hd : mainEffect e "icon-ch1".toList vars filter tr .done) (hv : ChosenVar vars .verticalWind)
    (count count' : Nat) (hh : ((filesOf catalogue .u t).map (·.hours)).Perm (List.range count))
    (hh' : ((filesOf catalogue .v t).map (·.hours)).Perm (List.range count')) (i j : Item)
    (hi : i ∈ filesOf catalogue .u t) (hj : j ∈ filesOf catalogue .v t) (ev : j.hours = i.hours)
    (hc : filter = [] ∨ i.hours ∈ filter) (heights mus mvs : List Msg)
    (hdh : Delivers e.world vert heights) (hlh : 80 ≤ heights.length)
    (hfh : ∀ k msg, 31 ≤ k → k ≤ 79 → heights[k]? = some msg → PointField msg n)
    (hdu : Delivers e.world i.href mus) (hlu : 80 ≤ mus.length)
    (hfu : ∀ k msg, 31 ≤ k → k ≤ 79 → mus[k]? = some msg → PointField msg n)
    (hdv : Delivers e.world j.href mvs) (hlv : 80 ≤ mvs.length)
    (hfv : ∀ k msg, 31 ≤ k → k ≤ 79 → mvs[k]? = some msg → PointField msg n) (before : Tree) :
    ∃ bytes, before.write tr (binPath (runAt t) i.hours .verticalWind) = some (.bytes bytes) ∧
      bytes.length = 1851 * 847 * (49 * 3) ∧
      ∀ x y, x < 1851 → y < 847 → ∃ o : Option Nat, Spec.Shows (position lat lon) n x y o ∧
        ∀ k height mu mv, k < 49 → heights[31 + k]? = some height → mus[31 + k]? = some mu → mvs[31 + k]? = some mv →
        ∃ bh bu bv : UInt8, bytes[((y * 1851 + x) * 49 + k) * 3]? = some bh ∧
        bytes[((y * 1851 + x) * 49 + k) * 3 + 1]? = some bu ∧ bytes[((y * 1851 + x) * 49 + k) * 3 + 2]? = some bv ∧
        (o.bind (physical height) = none → bh = 255) ∧
        (∀ q, o.bind (physical height) = some q → 1001 / 10 ≤ q * (328084 / 100000) →
          q * (328084 / 100000) ≤ 25499 → bh ≠ 255 ∧ q * (328084 / 100000) - 100 - 1 / 10 ≤ bh.toNat * 100 ∧
            (bh.toNat : Rat) * 100 ≤ q * (328084 / 100000) + 1 / 10) ∧
        (bu = 255 ↔ o.bind (physical mu) = none ∨ o.bind (physical mv) = none) ∧
        (bv = 255 ↔ o.bind (physical mu) = none ∨ o.bind (physical mv) = none) ∧
        ∀ u v, o.bind (physical mu) = some u → o.bind (physical mv) = some v →
          (|u| ≤ 60 → |(bu.toNat : Rat) - 128 - u * (194384 / 100000)| ≤ 1 / 2 + 2 / 100) ∧
          (|v| ≤ 60 → |(bv.toNat : Rat) - 128 - v * (194384 / 100000)| ≤ 1 / 2 + 2 / 100) := by
  obtain ⟨grid, hg, hrun⟩ := main_run h hd
  obtain ⟨us, hus, hmem⟩ := C112_steps web catalogue h.searches h.wellFormed .u t h.usual h.runTime count hh false
  obtain ⟨vs, hvs, hmem'⟩ := C112_steps web catalogue h.searches h.wellFormed .v t h.usual h.runTime count' hh' false
  obtain ⟨run, bytes, er, r⟩ := C102_wind e.libm e.world web.service Swiss.chrono e.dirs vars filter hor vert grid t tr
    hrun hg lat lon n h.constants hv us vs hus hvs ⟨i.hours, i.href⟩ ⟨j.hours, j.href⟩
    ((hmem _ _).mpr ⟨nofun, i, hi, rfl, rfl⟩) ((hmem' _ _).mpr ⟨nofun, j, hj, rfl, rfl⟩) ev hc heights mus mvs hdh hlh hfh
    hdu hlu hfu hdv hlv hfv before
  rw [C109_run t h.runTime] at er
  cases er
  exact ⟨bytes, r⟩

attribute [local irreducible] mainEffect

/-! ## A catalogue -/

/-- The texts of the hours 0 and 1. -/
def demoItem (t : Instant) (text : Text) (x : Swiss.Variable) (k : Fin 2) : Item :=
  ⟨ch1, t, text, k, if k = 0 then "P0DT00H00M00S".toList else "P0DT01H00M00S".toList, published x, false, [],
    if k = 0 then "a".toList else "b".toList⟩

def allVariables : List Swiss.Variable := [.clct, .totPrec, .ceiling, .u10m, .v10m, .vmax10m, .t2m, .clc, .u, .v]

/-- The hours 1 and 0 of all variables of a run at noon of 25 August 2025. -/
def demoCatalogue : List Item :=
  allVariables.flatMap fun x => [demoItem augustNoon "2025-08-25T12:00:00Z".toList x 1,
    demoItem augustNoon "2025-08-25T12:00:00Z".toList x 0]

/-- The web service with a catalogue. -/
def webOf (catalogue : List Item) : Swiss.Web :=
  ⟨fun _ => .ok [⟨"vertical_constants_icon-ch1-eps.grib2".toList, [], "vert".toList⟩,
    ⟨"horizontal_constants_icon-ch1-eps.grib2".toList, [], "hor".toList⟩],
    fun _ r => .ok ((catalogue.filter fun i => r.all (memberMatches i)).map Item.entry)⟩

def webEnv (m : Libm) (f : Msg) (catalogue : List Item) (dirs : Text → Bool) : Environment :=
  ⟨m, swissWorld f, (webOf catalogue).service, Swiss.chrono, dirs, ⟨2025, 8, 25⟩, ⟨2025, 8, 25⟩, fun _ => false⟩

theorem demoItem_ok {t : Instant} {text : Text} (h : Rfc3339.parse text = .ok ⟨t, 0⟩) (hr : IsRunTime t)
    (x : Swiss.Variable) (k : Fin 2) : (demoItem t text x k).WellFormed := by
  refine ⟨h, hr, ?_, ?_⟩
  · show (k : Nat) < 256
    omega
  · have : ∀ k : Fin 2, (if k = 0 then "P0DT00H00M00S".toList else "P0DT01H00M00S".toList) =
        'P' :: (dec ((k : Nat) / 24) ++ "DT".toList ++ decPad 2 ((k : Nat) % 24) ++ "H00M00S".toList) := by decide +kernel
    exact this k

theorem augustNoon_parse : Rfc3339.parse "2025-08-25T12:00:00Z".toList = .ok ⟨augustNoon, 0⟩ := by decide +kernel

theorem augustNoon_usual : UsualTime augustNoon := by unfold UsualTime augustNoon; rw [augustDate]; decide

theorem augustNoon_run : IsRunTime augustNoon := ⟨by decide, by decide, rfl⟩

theorem demoCatalogue_mem {i : Item} (h : i ∈ demoCatalogue) :
    ∃ x k, i = demoItem augustNoon "2025-08-25T12:00:00Z".toList x k := by
  unfold demoCatalogue at h
  obtain ⟨x, -, h⟩ := List.mem_flatMap.mp h
  simp only [List.mem_cons, List.not_mem_nil, or_false] at h
  rcases h with rfl | rfl
  exacts [⟨x, 1, rfl⟩, ⟨x, 0, rfl⟩]

theorem demo_files (x : Swiss.Variable) : filesOf demoCatalogue x augustNoon =
    [demoItem augustNoon "2025-08-25T12:00:00Z".toList x 1, demoItem augustNoon "2025-08-25T12:00:00Z".toList x 0] := by
  cases x <;> rfl

theorem demo_meets {f : Msg} (h : f.ok) (hk : f.product.known) (m : Libm) (dirs : Text → Bool) :
    Meets (webEnv m f demoCatalogue dirs) (webOf demoCatalogue) demoCatalogue "hor".toList "vert".toList latMsg lonMsg 4
      augustNoon where
  service := rfl
  calendar := rfl
  searches := fun _ => rfl
  wellFormed := fun i hi => by
    obtain ⟨x, k, rfl⟩ := demoCatalogue_mem hi
    exact demoItem_ok augustNoon_parse augustNoon_run x k
  ordered := by
    refine List.pairwise_of_forall_mem_list fun i hi j hj => ?_
    obtain ⟨x, k, rfl⟩ := demoCatalogue_mem hi
    obtain ⟨y, l, rfl⟩ := demoCatalogue_mem hj
    exact .inr ⟨rfl, .inr ⟨rfl, le_refl _⟩⟩
  newest := by
    refine ⟨⟨demoItem augustNoon "2025-08-25T12:00:00Z".toList .t2m 0, ?_, rfl⟩, fun i hi => ?_⟩
    · refine List.mem_filter.mpr ⟨List.mem_flatMap.mpr ⟨.t2m, by decide, by simp⟩, by simp [demoItem]⟩
    · obtain ⟨x, k, rfl⟩ := demoCatalogue_mem (List.mem_of_mem_filter hi)
      exact .inr ⟨rfl, .inr ⟨rfl, le_refl _⟩⟩
  usual := augustNoon_usual
  assets := ⟨_, _, _, rfl, rfl, rfl, rfl, rfl⟩
  constants := swiss_constants h hk _

/-- The hypotheses of C113 can be met. -/
theorem demo_success {f : Msg} (h : f.ok) (hk : f.product.known) (hf : FullField f 4) (m : Libm) (hm : AccurateRow m)
    (dirs : Text → Bool) (vars : List Text) (filter : List Nat) :
    ∃ tr, mainEffect (webEnv m f demoCatalogue dirs) "icon-ch1".toList vars filter tr .done := by
  refine (C113_success (webEnv m f demoCatalogue dirs) hm _ _ _ _ _ _ _ _ (demo_meets h hk m dirs) latMsg_full lonMsg_full
    vars filter (fun v _ => ⟨2, fun p _ => ⟨by rw [demo_files]; rfl, fun i _ => ?_⟩⟩) fun _ => swiss_level h hk hf _).1
  split
  · exact swiss_level h hk hf _
  · exact swiss_single h hk hf _

/-- The hypotheses of C114 can be met: 280 K at the point that is shown in a cell; the byte of hour 1 gives 6.85 degrees
Celsius. -/
example (m : Libm) (hm : AccurateRow m) (dirs : Text → Bool) (before : Tree) : ∃ tr bytes,
    mainEffect (webEnv m warmMsg demoCatalogue dirs) "icon-ch1".toList [] [1] tr .done ∧
    before.write tr (binPath ⟨.iconCh1, ⟨2025, 8, 25⟩, "12".toList⟩ 1 .temp2m) = some (.bytes bytes) ∧
    ∃ b, bytes[397 * 1851 + 781]? = some b ∧ |((b.toNat : Rat) - 128) / 2 - 685 / 100| ≤ 1 / 4 + 2 / 1000 := by
  have hk : warmMsg.product.known := trivial
  obtain ⟨tr, ht⟩ := demo_success (f := warmMsg) warmMsg_ok hk warmMsg_full m hm dirs [] [1]
  have hp : ((filesOf demoCatalogue .t2m augustNoon).map (·.hours)).Perm (List.range 2) := by
    rw [demo_files]; exact List.Perm.swap 0 1 []
  have hi : demoItem augustNoon "2025-08-25T12:00:00Z".toList .t2m 1 ∈ filesOf demoCatalogue .t2m augustNoon := by
    rw [demo_files]; simp
  have hd : Delivers (webEnv m warmMsg demoCatalogue dirs).world (demoItem augustNoon "2025-08-25T12:00:00Z".toList .t2m 1).href
      (warmMsg :: (swissMsgs warmMsg).tail) := swiss_delivers warmMsg_ok hk _
  obtain ⟨bytes, b1, -, b3⟩ := C114_temperature (webEnv m warmMsg demoCatalogue dirs) (webOf demoCatalogue)
    demoCatalogue "hor".toList "vert".toList latMsg lonMsg 4 augustNoon (demo_meets warmMsg_ok hk m dirs) [] [1] tr ht (.inl rfl)
    2 hp _ hi (.inr (by decide)) warmMsg _ hd warmMsg_full.toPointField before
  obtain ⟨o, b, hsh, hb, -, hv⟩ := b3 781 397 (by norm_num) (by norm_num)
  have er : runAt augustNoon = ⟨.iconCh1, ⟨2025, 8, 25⟩, "12".toList⟩ := by
    unfold runAt augustNoon
    rw [augustDate]
    decide +kernel
  rw [er] at b1
  refine ⟨tr, bytes, ht, b1, b, hb, ?_⟩
  obtain rfl := demo_shown hsh
  have p : physical warmMsg 0 = some 280 := by decide +kernel
  have := (hv 280 p (by norm_num) (by norm_num)).2
  norm_num at this ⊢
  exact this

/-! ## C115: incomplete runs -/

/-- What happens if the newest run has no file of cloud cover yet: the call succeeds and writes nothing. -/
theorem no_clouds {e : Environment} {web : Swiss.Web} {catalogue : List Item} {hor vert : Text} {lat lon : Msg} {n : Nat}
    {t : Instant} (h : Meets e web catalogue hor vert lat lon n t) (hc : filesOf catalogue .clct t = []) {filter : List Nat}
    {tr : List Write} (hd : mainEffect e "icon-ch1".toList [LayerType.cloudPrecip.name] filter tr .done) : tr = [] := by
  obtain ⟨grid, hg, hrun⟩ := main_run h hd
  by_contra hne
  obtain ⟨x, hx⟩ := List.exists_mem_of_ne_nil _ hne
  obtain ⟨out, run, steps, hv, -, hs, st, hst, -⟩ := C87_swiss_only _ _ _ _ _ _ _ _ _ _ _ _ hrun x hx
  have e : out.variable = .cloudPrecip := by
    rcases hv with hv | hv
    · cases hv
    · have := List.mem_singleton.mp hv
      revert this
      cases out.variable <;> decide
  rw [e] at hs
  obtain ⟨steps', hs', hmem⟩ := C112_steps web catalogue h.searches h.wellFormed .clct t h.usual h.runTime 0 (by rw [hc]; rfl)
    true
  have hs : Swiss.steps web.service t .clct true = .ok steps := hs
  rw [hs] at hs'
  cases hs'
  obtain ⟨-, i, hi, -⟩ := (hmem st.nr st.url).mp hst
  rw [hc] at hi
  cases hi

/-- Three hours later. -/
def augustThree : Instant := ⟨20325, 54000, 0⟩

/-- The complete run at noon, and the first file of the next run. -/
def partCatalogue : List Item := demoCatalogue ++ [demoItem augustThree "2025-08-25T15:00:00Z".toList .t2m 0]

theorem part_meets {f : Msg} (h : f.ok) (hk : f.product.known) (m : Libm) (dirs : Text → Bool) :
    Meets (webEnv m f partCatalogue dirs) (webOf partCatalogue) partCatalogue "hor".toList "vert".toList latMsg lonMsg 4
      augustThree where
  service := rfl
  calendar := rfl
  searches := fun _ => rfl
  wellFormed := fun i hi => by
    rcases List.mem_append.mp hi with hi | hi
    · exact (demo_meets h hk m dirs).wellFormed i hi
    · rw [List.mem_singleton.mp hi]
      exact demoItem_ok (by decide +kernel) ⟨by decide, by decide, rfl⟩ _ _
  ordered := by
    refine List.pairwise_append.mpr ⟨(demo_meets h hk m dirs).ordered, by simp, fun i hi j hj => ?_⟩
    obtain ⟨x, k, rfl⟩ := demoCatalogue_mem hi
    rw [List.mem_singleton.mp hj]
    exact .inr ⟨rfl, .inl (by decide : augustNoon.sec < augustThree.sec)⟩
  newest := by
    refine ⟨⟨demoItem augustThree "2025-08-25T15:00:00Z".toList .t2m 0, ?_, rfl⟩, fun i hi => ?_⟩
    · exact List.mem_filter.mpr ⟨List.mem_append.mpr (.inr (by simp)), by simp [demoItem]⟩
    · rcases List.mem_append.mp (List.mem_of_mem_filter hi) with hi | hi
      · obtain ⟨x, k, rfl⟩ := demoCatalogue_mem hi
        exact .inr ⟨rfl, .inl (by decide : augustNoon.sec < augustThree.sec)⟩
      · rw [List.mem_singleton.mp hi]
        exact .inr ⟨rfl, .inr ⟨rfl, le_refl _⟩⟩
  usual := by unfold UsualTime augustThree; rw [augustDate]; decide
  assets := ⟨_, _, _, rfl, rfl, rfl, rfl, rfl⟩
  constants := swiss_constants h hk _

/-- C115 (a call that succeeds writes the charts of the selected variables if some run of the catalogue is complete) is
false: while the first file of the next run is the only one that is published, a call for clouds succeeds and writes
nothing, although the files of the run before are all there. -/
theorem C115_counterexample (m : Libm) (hm : AccurateRow m) (dirs : Text → Bool) (f : Msg) (h : f.ok)
    (hk : f.product.known) (hf : FullField f 4) (filter : List Nat) :
    (∀ x, (filesOf partCatalogue x augustNoon).length = 2 ∧
      ∀ i ∈ filesOf partCatalogue x augustNoon, SingleFile (swissWorld f) 4 i.href) ∧
    (∃ tr, mainEffect (webEnv m f partCatalogue dirs) "icon-ch1".toList [LayerType.cloudPrecip.name] filter tr .done) ∧
    ∀ tr o, mainEffect (webEnv m f partCatalogue dirs) "icon-ch1".toList [LayerType.cloudPrecip.name] filter tr o →
      tr = [] ∧ o = .done := by
  have hnone : ∀ x : Swiss.Variable, x ≠ .t2m → filesOf partCatalogue x augustThree = [] := by
    intro x hx
    refine List.filter_eq_nil_iff.mpr fun i hi => ?_
    rw [decide_eq_true_eq]
    rintro ⟨-, e1, e2, -⟩
    rcases List.mem_append.mp hi with hi | hi
    · obtain ⟨y, k, rfl⟩ := demoCatalogue_mem hi
      exact absurd e2 (by decide : augustNoon ≠ augustThree)
    · rw [List.mem_singleton.mp hi] at e1
      exact hx (published_inj e1.symm)
  have hnoon : ∀ x : Swiss.Variable, filesOf partCatalogue x augustNoon = filesOf demoCatalogue x augustNoon := by
    intro x
    have : filesOf [demoItem augustThree "2025-08-25T15:00:00Z".toList .t2m 0] x augustNoon = [] := by
      refine List.filter_eq_nil_iff.mpr fun i hi => ?_
      rw [decide_eq_true_eq]
      rintro ⟨-, -, e2, -⟩
      rw [List.mem_singleton.mp hi] at e2
      exact absurd e2 (by decide : augustThree ≠ augustNoon)
    rw [← List.append_nil (filesOf demoCatalogue x augustNoon), ← this]
    exact List.filter_append ..
  obtain ⟨s1, s2⟩ := C113_success (webEnv m f partCatalogue dirs) hm (webOf partCatalogue) partCatalogue "hor".toList
    "vert".toList latMsg lonMsg 4 augustThree (part_meets h hk m dirs) latMsg_full lonMsg_full [LayerType.cloudPrecip.name] filter (fun v hv => ⟨0, fun p hp => by
      have e : v = .cloudPrecip := by
        rcases hv with hv | hv
        · cases hv
        · have := List.mem_singleton.mp hv
          revert this
          cases v <;> decide
      subst e
      have : p.1 ≠ .t2m := by
        simp only [needs, List.mem_cons, List.not_mem_nil, or_false] at hp
        rcases hp with rfl | rfl | rfl <;> decide
      rw [hnone _ this]
      exact ⟨rfl, nofun⟩⟩) (fun _ => swiss_level h hk hf _)
  refine ⟨fun x => ⟨by rw [hnoon, demo_files]; rfl, fun i _ => swiss_single h hk hf _⟩, s1, fun tr o ho => ?_⟩
  have e := s2 tr o ho
  subst e
  exact ⟨no_clouds (part_meets h hk m dirs) (hnone _ (by decide)) ho, rfl⟩

end Verif.Props
