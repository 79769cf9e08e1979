import Verif.Props.Catalogue
import Verif.Props.SwissTilesDemo

/-!
# C150 - C152: the other files of a run and the tiles, from the catalogue

C114 says what the program writes for temperature, precipitation and vertical wind, given the catalogue of forecast files.
Here the same is said of the remaining meteobin files and of the map tiles.
-/

namespace Verif.Props

open Verif MapTileRenderer MapTileCoord Colors
open Verif.Spec (Item filesOf Accurate AccurateRow mercatorLat degrees chartCell)
open Verif.Spec.Grib2 (Msg)

/-! ## C150: weather, and tiles of temperature -/

/-- C150: if a call for ICON-CH1 succeeds with clouds and an hour selected and the newest run has the files of cloud cover
and of ceiling of the hours 0, 1, ..., the weather file of this run and hour gives in each cell the class of the cloud
cover and the ceiling that the files of this hour have for the nearest point. -/
theorem C150_weather (e : Environment) (web : Swiss.Web) (catalogue : List Item) (hor vert : Text) (lat lon : Msg)
    (n : Nat) (t : Instant) (h : Meets e web catalogue hor vert lat lon n t) (vars : List Text) (filter : List Nat)
    (tr : List Write) (hd : mainEffect e "icon-ch1".toList vars filter tr .done) (hv : ChosenVar vars .cloudPrecip)
    (count count' : Nat) (hh : ((filesOf catalogue .clct t).map (·.hours)).Perm (List.range count))
    (hh' : ((filesOf catalogue .ceiling t).map (·.hours)).Perm (List.range count')) (i j : Item)
    (hi : i ∈ filesOf catalogue .clct t) (hj : j ∈ filesOf catalogue .ceiling t) (ej : j.hours = i.hours) (h0 : 0 < i.hours)
    (hc : filter = [] ∨ i.hours ∈ filter) (clct ceiling : Msg) (more more' : List Msg)
    (hdc : Delivers e.world i.href (clct :: more)) (hfc : PointField clct n)
    (hde : Delivers e.world j.href (ceiling :: more')) (hfe : PointField ceiling n) (before : Tree) :
    ∃ bytes, before.write tr (binPath (runAt t) i.hours .weather) = some (.bytes bytes) ∧ bytes.length = 1851 * 847 * 2 ∧
      ∀ x y, x < 1851 → y < 847 → ∃ (o : Option Nat) (bw bc : UInt8), Spec.Shows (position lat lon) n x y o ∧
        bytes[(y * 1851 + x) * 2]? = some bw ∧ bytes[(y * 1851 + x) * 2 + 1]? = some bc ∧
        (o.bind (physical clct) = none → bw = 255) ∧
        (∀ q, o.bind (physical clct) = some q → 0 ≤ q → q ≤ 100 →
          ∃ v : Rat, |v - q / 100| ≤ 1 / 10 ^ 6 ∧ bw.toNat = coverOf v) ∧
        (o.bind (physical ceiling) = none → bc = 255) ∧
        ∀ q, o.bind (physical ceiling) = some q → 0 ≤ q → q ≤ 99999 →
          (q * (328084 / 100000) ≤ 50898 → bc ≠ 255 ∧ |(bc.toNat : Rat) * 200 - q * (328084 / 100000)| ≤ 100 + 1 / 4) ∧
          (50902 ≤ q * (328084 / 100000) → bc = 255) := by
  obtain ⟨grid, hg, hrun⟩ := main_run h hd
  obtain ⟨steps, hsteps, hmem⟩ := C112_steps web catalogue h.searches h.wellFormed .clct t h.usual h.runTime count hh true
  obtain ⟨ceilings, hceilings, hmem'⟩ := C112_steps web catalogue h.searches h.wellFormed .ceiling t h.usual h.runTime count' hh' false
  obtain ⟨run, bytes, er, r⟩ := C107_weather e.libm e.world web.service Swiss.chrono e.dirs vars filter hor vert grid t tr
    hrun hg lat lon n h.constants hv steps ceilings hsteps hceilings ⟨i.hours, i.href⟩ ⟨j.hours, j.href⟩
    ((hmem _ _).mpr ⟨fun _ => by omega, i, hi, rfl, rfl⟩) ((hmem' _ _).mpr ⟨nofun, j, hj, rfl, rfl⟩) ej hc clct ceiling
    more more' hdc hfc hde hfe before
  rw [C109_run t h.runTime] at er
  cases er
  exact ⟨bytes, r⟩

/-- C150: with temperature selected, all tiles that the area needs are written for the run and the hour, and a pixel shows
the temperature that the file of the hour has for the point nearest to the centre of the cell where its position is looked
up. -/
theorem C150_temperature_tiles (e : Environment) (hacc : Accurate e.libm) (web : Swiss.Web) (catalogue : List Item)
    (hor vert : Text) (lat lon : Msg) (n : Nat) (t : Instant) (h : Meets e web catalogue hor vert lat lon n t)
    (vars : List Text) (filter : List Nat) (tr : List Write) (hd : mainEffect e "icon-ch1".toList vars filter tr .done)
    (hv : ChosenVar vars .temp2m) (count : Nat) (hh : ((filesOf catalogue .t2m t).map (·.hours)).Perm (List.range count))
    (i : Item) (hi : i ∈ filesOf catalogue .t2m t) (hc : filter = [] ∨ i.hours ∈ filter) (msg : Msg) (more : List Msg)
    (hdel : Delivers e.world i.href (msg :: more)) (hf : PointField msg n) (before : Tree) :
    ∃ point : Nat → Nat → Option Nat,
      (∀ x y, x < 1851 → y < 847 → Spec.Shows (position lat lon) n x y (point x y)) ∧
      ∀ c : MapTileCoord, Needed e.libm swissGrid.extent (0, 8) c → c.x < 2 ^ c.zoom → c.y < 2 ^ c.zoom →
      ∃ d, before.write tr (tilePath (outputPath (runAt t) i.hours .temp2m) c) = some (.picture d) ∧
        d.width = 256 ∧ d.height = 256 ∧
        ∀ k : Nat, k < 256 → ∃ a : Rat, |(a : ℝ) - mercatorLat (c.y + k / 256) c.zoom| ≤ 1 / 200 + 300 / 4 ^ c.zoom ∧
          ∀ j : Nat, j < 256 → ∃ px, d.pixel j k = some px ∧
            (¬ InChart a (pixelLon c.x c.zoom j) → px = Color.transparent) ∧
            (InChart a (pixelLon c.x c.zoom j) → ∃ x y, Looked a (pixelLon c.x c.zoom j) x y ∧
              (¬ (x < 1851 ∧ y < 847) → px = Color.transparent) ∧
              (x < 1851 ∧ y < 847 → TempShown ((point x y).bind (physical msg)) px)) := by
  obtain ⟨grid, hg, hrun⟩ := main_run h hd
  obtain ⟨steps, hsteps, hmem⟩ := C112_steps web catalogue h.searches h.wellFormed .t2m t h.usual h.runTime count hh false
  obtain ⟨run, er, r⟩ := C126_temperature_tiles e.libm hacc e.world web.service Swiss.chrono e.dirs vars filter hor vert grid t tr
    hrun hg lat lon n h.constants hv steps hsteps ⟨i.hours, i.href⟩ ((hmem _ _).mpr ⟨nofun, i, hi, rfl, rfl⟩) hc msg more hdel
    hf before
  rw [C109_run t h.runTime] at er
  cases er
  exact r

/-! ## C151: wind -/

/-- C151, the part that holds: likewise, the wind file gives the components of the wind and the gusts at the nearest point.
Missing from the full claim: components of -1 m/s (see the counterexample). -/
theorem C151_wind_partial (e : Environment) (web : Swiss.Web) (catalogue : List Item) (hor vert : Text) (lat lon : Msg)
    (n : Nat) (t : Instant) (h : Meets e web catalogue hor vert lat lon n t) (vars : List Text) (filter : List Nat)
    (tr : List Write) (hd : mainEffect e "icon-ch1".toList vars filter tr .done) (hv : ChosenVar vars .wind10m)
    (cu cv cg : Nat) (hu : ((filesOf catalogue .u10m t).map (·.hours)).Perm (List.range cu))
    (hw : ((filesOf catalogue .v10m t).map (·.hours)).Perm (List.range cv))
    (hm : ((filesOf catalogue .vmax10m t).map (·.hours)).Perm (List.range cg)) (i j g : Item)
    (hi : i ∈ filesOf catalogue .u10m t) (hj : j ∈ filesOf catalogue .v10m t) (hgi : g ∈ filesOf catalogue .vmax10m t)
    (ej : j.hours = i.hours) (eg : g.hours = i.hours) (hc : filter = [] ∨ i.hours ∈ filter)
    (mu mv mg : Msg) (more more' more'' : List Msg)
    (hdu : Delivers e.world i.href (mu :: more)) (hfu : PointField mu n)
    (hdv : Delivers e.world j.href (mv :: more')) (hfv : PointField mv n)
    (hdg : Delivers e.world g.href (mg :: more'')) (hfg : PointField mg n) (before : Tree) :
    ∃ bytes, before.write tr (binPath (runAt t) i.hours .wind10m) = some (.bytes bytes) ∧ bytes.length = 1851 * 847 * 3 ∧
      ∀ x y, x < 1851 → y < 847 → ∃ (o : Option Nat) (bu bv bg : UInt8), Spec.Shows (position lat lon) n x y o ∧
        bytes[(y * 1851 + x) * 3]? = some bu ∧ bytes[(y * 1851 + x) * 3 + 1]? = some bv ∧
        bytes[(y * 1851 + x) * 3 + 2]? = some bg ∧
        ((o.bind (physical mu) = none ∨ o.bind (physical mv) = none) → bu = 255 ∧ bv = 255 ∧ bg = 255) ∧
        ∀ u v, o.bind (physical mu) = some u → o.bind (physical mv) = some v → |u| ≤ 60 → |v| ≤ 60 →
          1 / 1000 < |u + 1| → 1 / 1000 < |v + 1| →
          bu ≠ 255 ∧ |(bu.toNat : Rat) - 128 - u * (194384 / 100000)| ≤ 1 / 2 + 2 / 100 ∧
          bv ≠ 255 ∧ |(bv.toNat : Rat) - 128 - v * (194384 / 100000)| ≤ 1 / 2 + 2 / 100 ∧
          (o.bind (physical mg) = none → bg = 255) ∧
          ∀ g, o.bind (physical mg) = some g → 0 ≤ g → g ≤ 130 →
            bg ≠ 255 ∧ |(bg.toNat : Rat) - g * (194384 / 100000)| ≤ 1 / 2 + 2 / 100 := by
  obtain ⟨grid, hg, hrun⟩ := main_run h hd
  obtain ⟨us, hus, hmu⟩ := C112_steps web catalogue h.searches h.wellFormed .u10m t h.usual h.runTime cu hu false
  obtain ⟨vs, hvs, hmv⟩ := C112_steps web catalogue h.searches h.wellFormed .v10m t h.usual h.runTime cv hw false
  obtain ⟨gs, hgs, hmg⟩ := C112_steps web catalogue h.searches h.wellFormed .vmax10m t h.usual h.runTime cg hm false
  obtain ⟨run, bytes, er, r⟩ := C100_wind_partial e.libm e.world web.service Swiss.chrono e.dirs vars filter hor vert grid t tr
    hrun hg lat lon n h.constants hv us vs gs hus hvs hgs ⟨i.hours, i.href⟩ ⟨j.hours, j.href⟩ ⟨g.hours, g.href⟩
    ((hmu _ _).mpr ⟨nofun, i, hi, rfl, rfl⟩) ((hmv _ _).mpr ⟨nofun, j, hj, rfl, rfl⟩)
    ((hmg _ _).mpr ⟨nofun, g, hgi, rfl, rfl⟩) ej eg hc mu mv mg more more' more'' hdu hfu hdv hfv hdg hfg before
  rw [C109_run t h.runTime] at er
  cases er
  exact ⟨bytes, r⟩

/-- C151, the part that holds: likewise, the tiles show the speed of the wind. -/
theorem C151_wind_tiles_partial (e : Environment) (hacc : Accurate e.libm) (web : Swiss.Web) (catalogue : List Item)
    (hor vert : Text) (lat lon : Msg) (n : Nat) (t : Instant) (h : Meets e web catalogue hor vert lat lon n t)
    (vars : List Text) (filter : List Nat) (tr : List Write) (hd : mainEffect e "icon-ch1".toList vars filter tr .done)
    (hv : ChosenVar vars .wind10m)
    (cu cv cg : Nat) (hu : ((filesOf catalogue .u10m t).map (·.hours)).Perm (List.range cu))
    (hw : ((filesOf catalogue .v10m t).map (·.hours)).Perm (List.range cv))
    (hm : ((filesOf catalogue .vmax10m t).map (·.hours)).Perm (List.range cg)) (i j g : Item)
    (hi : i ∈ filesOf catalogue .u10m t) (hj : j ∈ filesOf catalogue .v10m t) (hgi : g ∈ filesOf catalogue .vmax10m t)
    (ej : j.hours = i.hours) (eg : g.hours = i.hours) (hc : filter = [] ∨ i.hours ∈ filter)
    (mu mv : Msg) (more more' : List Msg)
    (hdu : Delivers e.world i.href (mu :: more)) (hfu : PointField mu n)
    (hdv : Delivers e.world j.href (mv :: more')) (hfv : PointField mv n) (before : Tree) :
    ∃ point : Nat → Nat → Option Nat,
      (∀ x y, x < 1851 → y < 847 → Spec.Shows (position lat lon) n x y (point x y)) ∧
      ∀ c : MapTileCoord, Needed e.libm swissGrid.extent (0, 8) c → c.x < 2 ^ c.zoom → c.y < 2 ^ c.zoom →
      ∃ d, before.write tr (tilePath (outputPath (runAt t) i.hours .wind10m) c) = some (.picture d) ∧
        d.width = 256 ∧ d.height = 256 ∧
        ∀ k : Nat, k < 256 → ∃ a : Rat, |(a : ℝ) - mercatorLat (c.y + k / 256) c.zoom| ≤ 1 / 200 + 300 / 4 ^ c.zoom ∧
          ∀ j : Nat, j < 256 → ∃ px, d.pixel j k = some px ∧
            (¬ InChart a (pixelLon c.x c.zoom j) → px = Color.transparent) ∧
            (InChart a (pixelLon c.x c.zoom j) → ∃ x y, Looked a (pixelLon c.x c.zoom j) x y ∧
              (¬ (x < 1851 ∧ y < 847) → px = Color.transparent) ∧
              (x < 1851 ∧ y < 847 →
                WindShown ((point x y).bind (physical mu)) ((point x y).bind (physical mv)) px)) := by
  obtain ⟨grid, hg, hrun⟩ := main_run h hd
  obtain ⟨us, hus, hmu⟩ := C112_steps web catalogue h.searches h.wellFormed .u10m t h.usual h.runTime cu hu false
  obtain ⟨vs, hvs, hmv⟩ := C112_steps web catalogue h.searches h.wellFormed .v10m t h.usual h.runTime cv hw false
  obtain ⟨gs, hgs, hmg⟩ := C112_steps web catalogue h.searches h.wellFormed .vmax10m t h.usual h.runTime cg hm false
  obtain ⟨run, er, r⟩ := C127_wind_tiles_partial e.libm hacc e.world web.service Swiss.chrono e.dirs vars filter hor vert grid t tr
    hrun hg lat lon n h.constants hv us vs gs hus hvs hgs ⟨i.hours, i.href⟩ ⟨j.hours, j.href⟩ ⟨g.hours, g.href⟩
    ((hmu _ _).mpr ⟨nofun, i, hi, rfl, rfl⟩) ((hmv _ _).mpr ⟨nofun, j, hj, rfl, rfl⟩)
    ((hmg _ _).mpr ⟨nofun, g, hgi, rfl, rfl⟩) ej eg hc mu mv more more' hdu hfu hdv hfv before
  rw [C109_run t h.runTime] at er
  cases er
  exact r

/-! ## C152: clouds -/

/-- C152, the part that holds: likewise, the file of vertical clouds gives for each of 49 levels the height and the cloud
cover at the nearest point.  Missing from the full claim: covers below 1 percent and heights below 100 or above 25500 feet,
which are written as 255. -/
theorem C152_vertical_clouds_partial (e : Environment) (web : Swiss.Web) (catalogue : List Item) (hor vert : Text) (lat lon : Msg)
    (n : Nat) (t : Instant) (h : Meets e web catalogue hor vert lat lon n t) (vars : List Text) (filter : List Nat)
    (tr : List Write) (hd : mainEffect e "icon-ch1".toList vars filter tr .done) (hv : ChosenVar vars .verticalCloud)
    (count : Nat) (hh : ((filesOf catalogue .clc t).map (·.hours)).Perm (List.range count)) (i : Item)
    (hi : i ∈ filesOf catalogue .clc t) (hc : filter = [] ∨ i.hours ∈ filter) (heights covers : List Msg)
    (hdh : Delivers e.world vert heights) (hlh : 80 ≤ heights.length)
    (hfh : ∀ k msg, 31 ≤ k → k ≤ 79 → heights[k]? = some msg → PointField msg n)
    (hdc : Delivers e.world i.href covers) (hlc : 80 ≤ covers.length)
    (hfc : ∀ k msg, 31 ≤ k → k ≤ 79 → covers[k]? = some msg → PointField msg n) (before : Tree) :
    ∃ bytes, before.write tr (binPath (runAt t) i.hours .verticalClouds) = some (.bytes bytes) ∧
      bytes.length = 1851 * 847 * (49 * 2) ∧
      ∀ x y, x < 1851 → y < 847 → ∃ o : Option Nat, Spec.Shows (position lat lon) n x y o ∧
        ∀ k height cover, k < 49 → heights[31 + k]? = some height → covers[31 + k]? = some cover → ∃ bh bc : UInt8,
        bytes[((y * 1851 + x) * 49 + k) * 2]? = some bh ∧ bytes[((y * 1851 + x) * 49 + k) * 2 + 1]? = some bc ∧
        (o.bind (physical height) = none → bh = 255) ∧ (o.bind (physical cover) = none → bc = 255) ∧
        (∀ q, o.bind (physical height) = some q →
          (1001 / 10 ≤ q * (328084 / 100000) → q * (328084 / 100000) ≤ 25499 → bh ≠ 255 ∧
            q * (328084 / 100000) - 100 - 1 / 10 ≤ bh.toNat * 100 ∧
            (bh.toNat : Rat) * 100 ≤ q * (328084 / 100000) + 1 / 10) ∧
          (0 ≤ q → q * (328084 / 100000) ≤ 999 / 10 ∨ 25501 ≤ q * (328084 / 100000) → q ≤ 100000 → bh = 255)) ∧
        ∀ q, o.bind (physical cover) = some q →
          (1001 / 1000 ≤ q → q ≤ 254 → bc ≠ 255 ∧ q - 1 - 1 / 1000 ≤ bc.toNat ∧ (bc.toNat : Rat) ≤ q + 1 / 1000) ∧
          (0 ≤ q → q ≤ 999 / 1000 → bc = 255) := by
  obtain ⟨grid, hg, hrun⟩ := main_run h hd
  obtain ⟨steps, hsteps, hmem⟩ := C112_steps web catalogue h.searches h.wellFormed .clc t h.usual h.runTime count hh false
  obtain ⟨run, bytes, er, r⟩ := C101_clouds_partial e.libm e.world web.service Swiss.chrono e.dirs vars filter hor vert grid t tr
    hrun hg lat lon n h.constants hv steps hsteps ⟨i.hours, i.href⟩ ((hmem _ _).mpr ⟨nofun, i, hi, rfl, rfl⟩) hc heights
    covers hdh hlh hfh hdc hlc hfc before
  rw [C109_run t h.runTime] at er
  cases er
  exact ⟨bytes, r⟩

/-- C152, the part that holds: likewise, the tiles of clouds and precipitation show the cloud cover and the difference of the
totals of the hour and of the hour before, both interpolated.  Missing from the full claim: places without data, which are
drawn as a clear sky (C128_counterexample). -/
theorem C152_cloud_precip_tiles_partial (e : Environment) (hacc : Accurate e.libm) (web : Swiss.Web) (catalogue : List Item)
    (hor vert : Text) (lat lon : Msg) (n : Nat) (t : Instant) (h : Meets e web catalogue hor vert lat lon n t)
    (vars : List Text) (filter : List Nat) (tr : List Write) (hd : mainEffect e "icon-ch1".toList vars filter tr .done)
    (hv : ChosenVar vars .cloudPrecip)
    (count count' : Nat) (hh : ((filesOf catalogue .clct t).map (·.hours)).Perm (List.range count))
    (hh' : ((filesOf catalogue .totPrec t).map (·.hours)).Perm (List.range count'))
    (i j0 j1 : Item) (hi : i ∈ filesOf catalogue .clct t) (hj0 : j0 ∈ filesOf catalogue .totPrec t)
    (hj1 : j1 ∈ filesOf catalogue .totPrec t) (e0 : j0.hours + 1 = i.hours) (e1 : j1.hours = i.hours)
    (hc : filter = [] ∨ i.hours ∈ filter) (clct total0 total1 : Msg) (more more0 more1 : List Msg)
    (hdel : Delivers e.world i.href (clct :: more)) (hf : PointField clct n)
    (hdel0 : Delivers e.world j0.href (total0 :: more0)) (hf0 : PointField total0 n)
    (hdel1 : Delivers e.world j1.href (total1 :: more1)) (hf1 : PointField total1 n)
    (bc : ∀ k q, k < n → physical clct k = some q → 0 ≤ q ∧ q ≤ 100)
    (b0 : ∀ k q, k < n → physical total0 k = some q → 0 ≤ q ∧ q ≤ 1000)
    (b1 : ∀ k q, k < n → physical total1 k = some q → 0 ≤ q ∧ q ≤ 1000) (before : Tree) :
    ∃ point : Nat → Nat → Option Nat,
      (∀ x y, x < 1851 → y < 847 → Spec.Shows (position lat lon) n x y (point x y)) ∧
      ∀ c : MapTileCoord, Needed e.libm swissGrid.extent (0, 8) c → c.x < 2 ^ c.zoom → c.y < 2 ^ c.zoom →
      ∃ d, before.write tr (tilePath (outputPath (runAt t) i.hours .cloudPrecip) c) = some (.picture d) ∧
        d.width = 256 ∧ d.height = 256 ∧
        ∀ k : Nat, k < 256 → ∃ a : Rat, |(a : ℝ) - mercatorLat (c.y + k / 256) c.zoom| ≤ 1 / 200 + 300 / 4 ^ c.zoom ∧
          ∀ j : Nat, j < 256 → ∃ px, d.pixel j k = some px ∧
            (¬ InChart a (pixelLon c.x c.zoom j) → px = clearSky) ∧
            (InChart a (pixelLon c.x c.zoom j) → ∃ fx fy, Within a (pixelLon c.x c.zoom j) fx fy ∧
              CloudRainShown (sampled (fun x y => ((point x y).bind (physical clct)).map (· / 100)) 1851 847 fx fy)
                (sampled (fun x y => (point x y).bind (physical total0)) 1851 847 fx fy)
                (sampled (fun x y => (point x y).bind (physical total1)) 1851 847 fx fy) px) := by
  obtain ⟨grid, hg, hrun⟩ := main_run h hd
  obtain ⟨steps, hsteps, hmem⟩ := C112_steps web catalogue h.searches h.wellFormed .clct t h.usual h.runTime count hh true
  obtain ⟨totals, htotals, hmem'⟩ := C112_steps web catalogue h.searches h.wellFormed .totPrec t h.usual h.runTime count' hh' false
  obtain ⟨run, er, r⟩ := C128_cloud_precip_tiles_partial e.libm hacc e.world web.service Swiss.chrono e.dirs vars filter hor vert grid t tr
    hrun hg lat lon n h.constants hv steps totals hsteps htotals ⟨i.hours, i.href⟩ ⟨j0.hours, j0.href⟩ ⟨j1.hours, j1.href⟩
    ((hmem _ _).mpr ⟨fun _ => by omega, i, hi, rfl, rfl⟩) ((hmem' _ _).mpr ⟨nofun, j0, hj0, rfl, rfl⟩)
    ((hmem' _ _).mpr ⟨nofun, j1, hj1, rfl, rfl⟩) e0 e1 hc clct total0 total1 more more0 more1 hdel hf hdel0 hf0 hdel1 hf1
    bc b0 b1 before
  rw [C109_run t h.runTime] at er
  cases er
  exact r

attribute [local irreducible] mainEffect

/-! ## The catalogue of `Verif.Props.Catalogue` -/

theorem demo_hours (x : Swiss.Variable) : ((filesOf demoCatalogue x augustNoon).map (·.hours)).Perm (List.range 2) := by
  rw [demo_files]; exact List.Perm.swap 0 1 []

theorem demo_hour1 (x : Swiss.Variable) :
    demoItem augustNoon "2025-08-25T12:00:00Z".toList x 1 ∈ filesOf demoCatalogue x augustNoon := by
  rw [demo_files]; simp

theorem demo_hour0 (x : Swiss.Variable) :
    demoItem augustNoon "2025-08-25T12:00:00Z".toList x 0 ∈ filesOf demoCatalogue x augustNoon := by
  rw [demo_files]; simp

theorem demo_run : runAt augustNoon = ⟨.iconCh1, ⟨2025, 8, 25⟩, "12".toList⟩ := by
  unfold runAt augustNoon
  rw [augustDate]
  decide +kernel

/-- The hypotheses of C150 can be met: the cover of 50 percent is of class 2, and the ceiling of 50 m is nearest to 200
feet. -/
example (m : Libm) (hm : AccurateRow m) (dirs : Text → Bool) (before : Tree) : ∃ tr bytes,
    mainEffect (webEnv m galeMsg demoCatalogue dirs) "icon-ch1".toList [LayerType.cloudPrecip.name] [1] tr .done ∧
    before.write tr (binPath ⟨.iconCh1, ⟨2025, 8, 25⟩, "12".toList⟩ 1 .weather) = some (.bytes bytes) ∧
    ∃ b, bytes[(397 * 1851 + 781) * 2]? = some 2 ∧ bytes[(397 * 1851 + 781) * 2 + 1]? = some b ∧
      |(b.toNat : Rat) * 200 - 50 * (328084 / 100000)| ≤ 100 + 1 / 4 := by
  have hk : galeMsg.product.known := trivial
  have hd := swiss_delivers galeMsg_ok hk
  obtain ⟨tr, ht⟩ := demo_success galeMsg_ok hk galeMsg_full m hm dirs [LayerType.cloudPrecip.name] [1]
  obtain ⟨bytes, b1, -, b3⟩ := C150_weather (webEnv m galeMsg demoCatalogue dirs) (webOf demoCatalogue) demoCatalogue
    "hor".toList "vert".toList latMsg lonMsg 4 augustNoon (demo_meets galeMsg_ok hk m dirs) _ [1] tr ht
    (.inr (List.mem_singleton.mpr rfl)) 2 2 (demo_hours _) (demo_hours _) _ _ (demo_hour1 _) (demo_hour1 _) rfl (by decide)
    (.inr (by decide)) galeMsg galeMsg _ _ (hd _) galeMsg_full.toPointField (hd _) galeMsg_full.toPointField before
  obtain ⟨o, bw, bc, hsh, c1, c2, -, c4, -, c6⟩ := b3 781 397 (by norm_num) (by norm_num)
  obtain rfl := demo_shown hsh
  have p : physical galeMsg 0 = some 50 := by decide +kernel
  obtain ⟨v, v1, v2⟩ := c4 50 p (by norm_num) (by norm_num)
  have v1 := abs_le.mp v1
  have : coverOf v = 2 := by
    unfold coverOf
    rw [if_neg (by linarith [v1.1]), if_neg (by linarith [v1.1]), if_pos (by linarith [v1.2])]
  rw [this] at v2
  rw [show bw = 2 from byte_eq_of_toNat v2] at c1
  rw [demo_run] at b1
  exact ⟨tr, bytes, ht, b1, bc, c1, c2, ((c6 50 p (by norm_num) (by norm_num)).1 (by norm_num)).2⟩

/-- The hypotheses of C150 can be met, and those of the tiles: a pixel near 44.5 N 5 E, where there is no point, is
transparent. -/
example (dirs : Text → Bool) (before : Tree) : ∃ m tr,
    mainEffect (webEnv m warmMsg demoCatalogue dirs) "icon-ch1".toList [] [1] tr .done ∧
    ∃ (c : MapTileCoord) (d : Drawable) (i j : Nat),
      before.write tr (tilePath (outputPath ⟨.iconCh1, ⟨2025, 8, 25⟩, "12".toList⟩ 1 .temp2m) c) = some (.picture d) ∧
      |pixelLon c.x c.zoom j - 5| ≤ 1 / 100 ∧ d.pixel j i = some Color.transparent := by
  obtain ⟨m, hacc, hm⟩ := exists_both
  have hk : warmMsg.product.known := trivial
  obtain ⟨tr, ht⟩ := demo_success warmMsg_ok hk warmMsg_full m hm dirs [] [1]
  obtain ⟨point, hsh, main⟩ := C150_temperature_tiles (webEnv m warmMsg demoCatalogue dirs) hacc (webOf demoCatalogue)
    demoCatalogue "hor".toList "vert".toList latMsg lonMsg 4 augustNoon (demo_meets warmMsg_ok hk m dirs) [] [1] tr ht (.inl rfl)
    2 (demo_hours _) _ (demo_hour1 _) (.inr (by decide)) warmMsg _ (swiss_delivers warmMsg_ok hk _)
    warmMsg_full.toPointField before
  refine ⟨m, tr, ht, ?_⟩
  obtain ⟨c, hn, hx, hy, i, j, hi, hj, e1, e2⟩ := swiss_place hm (lat0 := 445 / 10) (lon0 := 5) (by norm_num) (by norm_num)
    (by norm_num) (by norm_num)
  obtain ⟨d, h1, -, -, h2⟩ := main c hn hx hy
  rw [demo_run] at h1
  obtain ⟨a, ha, h3⟩ := h2 i hi
  obtain ⟨px, hpx, -, h4⟩ := h3 j hj
  refine ⟨c, d, i, j, h1, e1, ?_⟩
  have e1 := abs_le.mp e1
  have e2 := abs_le.mp (e2 a ha)
  obtain ⟨x, y, hl, -, h5⟩ := h4 ⟨by linarith [e2.1], by linarith [e2.2], by linarith [e1.1], by linarith [e1.2]⟩
  obtain ⟨l1, l2⟩ := hl.empty (by linarith [e2.2]) (by linarith [e1.2])
  rw [hpx, (h5 ⟨by omega, by omega⟩).1 (by rw [demo_empty l1 l2 (hsh x y (by omega) (by omega))]; rfl)]

/-- C151 is false: the catalogue's file of an hour has a wind of -1 m/s from the west at the point that is shown in a cell,
but the file that is written has no wind there. -/
theorem C151_counterexample (m : Libm) (hm : AccurateRow m) (dirs : Text → Bool) (before : Tree) :
    ∃ (e : Environment) (web : Swiss.Web) (catalogue : List Item) (t : Instant) (tr : List Write) (i : Item) (msg : Msg)
      (more : List Msg) (bytes : List UInt8),
    Meets e web catalogue "hor".toList "vert".toList latMsg lonMsg 4 t ∧ mainEffect e "icon-ch1".toList [] [] tr .done ∧
    i ∈ filesOf catalogue .u10m t ∧ Delivers e.world i.href (msg :: more) ∧ FullField msg 4 ∧
    before.write tr (binPath (runAt t) i.hours .wind10m) = some (.bytes bytes) ∧
    (∀ o, Spec.Shows (position latMsg lonMsg) 4 781 397 o → o = some 0) ∧ physical msg 0 = some (-1) ∧
    bytes[(397 * 1851 + 781) * 3]? = some 255 := by
  have hk : minusMsg.product.known := trivial
  have h := demo_meets minusMsg_ok hk m dirs
  obtain ⟨tr, ht⟩ := demo_success minusMsg_ok hk minusMsg_full m hm dirs [] []
  obtain ⟨grid, hg, hrun⟩ := main_run h ht
  obtain ⟨us, hu, hmem⟩ := C112_steps (webOf demoCatalogue) demoCatalogue h.searches h.wellFormed .u10m augustNoon h.usual h.runTime 2
    (demo_hours _) false
  obtain ⟨vs, hv, -⟩ := C112_steps (webOf demoCatalogue) demoCatalogue h.searches h.wellFormed .v10m augustNoon h.usual h.runTime 2
    (demo_hours _) false
  obtain ⟨gs, hgs, -⟩ := C112_steps (webOf demoCatalogue) demoCatalogue h.searches h.wellFormed .vmax10m augustNoon h.usual h.runTime 2
    (demo_hours _) false
  have hp := placed (swiss_constants minusMsg_ok hk _) hg
  have u1 := (hmem 1 "b".toList).mpr ⟨nofun, _, demo_hour1 _, rfl, rfl⟩
  obtain ⟨run, l, er, hl, -, hfile⟩ := bin_of_swiss (v := .wind10m) hrun (.inl rfl) (by simp) hu u1 (.inl rfl)
  rw [C109_run augustNoon augustNoon_run] at er
  cases er
  simp only [swissLayers, hu, hv, hgs, Res.bind_ok, Res.bind_eq_ok, Res.ok.injEq] at hl
  obtain ⟨L, hL, rfl⟩ := hl
  unfold Swiss.readWind at hL
  obtain ⟨_, _, hL⟩ := bind_ok' hL
  obtain ⟨_, _, hL⟩ := bind_ok' hL
  obtain ⟨_, _, hL⟩ := bind_ok' hL
  obtain ⟨U, hU, hL⟩ := bind_ok' hL
  obtain ⟨V, hV, hL⟩ := bind_ok' hL
  obtain ⟨G, hG, hL⟩ := bind_ok' hL
  obtain rfl := wind_new hL
  obtain ⟨fu, cu⟩ := minus_grid hp hU
  obtain ⟨fv, cv⟩ := minus_grid hp hV
  obtain ⟨fg, cg⟩ := minus_grid hp hG
  obtain ⟨bytes, b1, b2, b3⟩ := C39_file (l := ⟨U, V, some G⟩) fu fv (by rintro g ⟨⟩; exact fg)
  refine ⟨_, _, _, augustNoon, tr, _, minusMsg, _, bytes, h, ht, demo_hour1 _, swiss_delivers minusMsg_ok hk _, minusMsg_full,
    hfile before (.bin .wind10m) _ (.wind b1), fun o => demo_shown, by decide +kernel, ?_⟩
  obtain ⟨be, bn, bg, h1, -, -, h2, -⟩ := b3 781 397 (by norm_num) (by norm_num)
  rw [h1, h2.mpr (.inl (cu 781 397 (by norm_num) (by norm_num)))]

/-- The hypotheses of C151 can be met: 50 m/s, in the components and in the gusts. -/
example (m : Libm) (hm : AccurateRow m) (dirs : Text → Bool) (before : Tree) : ∃ tr bytes,
    mainEffect (webEnv m galeMsg demoCatalogue dirs) "icon-ch1".toList [] [0] tr .done ∧
    before.write tr (binPath ⟨.iconCh1, ⟨2025, 8, 25⟩, "12".toList⟩ 0 .wind10m) = some (.bytes bytes) ∧
    ∃ bu bv bg : UInt8, bytes[(397 * 1851 + 781) * 3]? = some bu ∧ bytes[(397 * 1851 + 781) * 3 + 1]? = some bv ∧
      bytes[(397 * 1851 + 781) * 3 + 2]? = some bg ∧ |(bu.toNat : Rat) - 128 - 50 * (194384 / 100000)| ≤ 1 / 2 + 2 / 100 ∧
      |(bv.toNat : Rat) - 128 - 50 * (194384 / 100000)| ≤ 1 / 2 + 2 / 100 ∧
      |(bg.toNat : Rat) - 50 * (194384 / 100000)| ≤ 1 / 2 + 2 / 100 := by
  have hk : galeMsg.product.known := trivial
  have hd := swiss_delivers galeMsg_ok hk
  have hf := galeMsg_full.toPointField
  obtain ⟨tr, ht⟩ := demo_success galeMsg_ok hk galeMsg_full m hm dirs [] [0]
  obtain ⟨bytes, b1, -, b3⟩ := C151_wind_partial (webEnv m galeMsg demoCatalogue dirs) (webOf demoCatalogue) demoCatalogue
    "hor".toList "vert".toList latMsg lonMsg 4 augustNoon (demo_meets galeMsg_ok hk m dirs) _ [0] tr ht
    (.inl rfl) 2 2 2 (demo_hours _) (demo_hours _) (demo_hours _) _ _ _ (demo_hour0 _) (demo_hour0 _) (demo_hour0 _) rfl rfl
    (.inr (by decide)) galeMsg galeMsg galeMsg _ _ _ (hd _) hf (hd _) hf (hd _) hf before
  obtain ⟨o, bu, bv, bg, hsh, c1, c2, c3, -, c4⟩ := b3 781 397 (by norm_num) (by norm_num)
  obtain rfl := demo_shown hsh
  have p : physical galeMsg 0 = some 50 := by decide +kernel
  obtain ⟨-, d1, -, d2, -, d3⟩ := c4 50 50 p p (by norm_num) (by norm_num) (by norm_num) (by norm_num)
  rw [demo_run] at b1
  exact ⟨tr, bytes, ht, b1, bu, bv, bg, c1, c2, c3, d1, d2, (d3 50 p (by norm_num) (by norm_num)).2⟩

/-- The hypotheses of C151 can be met, and those of the tiles: a pixel near 44.5 N 5 E, where there is no point, is
transparent. -/
example (dirs : Text → Bool) (before : Tree) : ∃ m tr,
    mainEffect (webEnv m galeMsg demoCatalogue dirs) "icon-ch1".toList [] [1] tr .done ∧
    ∃ (c : MapTileCoord) (d : Drawable) (i j : Nat),
      before.write tr (tilePath (outputPath ⟨.iconCh1, ⟨2025, 8, 25⟩, "12".toList⟩ 1 .wind10m) c) = some (.picture d) ∧
      |pixelLon c.x c.zoom j - 5| ≤ 1 / 100 ∧ d.pixel j i = some Color.transparent := by
  obtain ⟨m, hacc, hm⟩ := exists_both
  have hk : galeMsg.product.known := trivial
  have hd := swiss_delivers galeMsg_ok hk
  have hf := galeMsg_full.toPointField
  obtain ⟨tr, ht⟩ := demo_success galeMsg_ok hk galeMsg_full m hm dirs [] [1]
  obtain ⟨point, hsh, main⟩ := C151_wind_tiles_partial (webEnv m galeMsg demoCatalogue dirs) hacc (webOf demoCatalogue)
    demoCatalogue "hor".toList "vert".toList latMsg lonMsg 4 augustNoon (demo_meets galeMsg_ok hk m dirs) [] [1] tr ht (.inl rfl)
    2 2 2 (demo_hours _) (demo_hours _) (demo_hours _) _ _ _ (demo_hour1 _) (demo_hour1 _) (demo_hour1 _) rfl rfl
    (.inr (by decide)) galeMsg galeMsg _ _ (hd _) hf (hd _) hf before
  refine ⟨m, tr, ht, ?_⟩
  obtain ⟨c, hn, hx, hy, i, j, hi, hj, e1, e2⟩ := swiss_place hm (lat0 := 445 / 10) (lon0 := 5) (by norm_num) (by norm_num)
    (by norm_num) (by norm_num)
  obtain ⟨d, h1, -, -, h2⟩ := main c hn hx hy
  rw [demo_run] at h1
  obtain ⟨a, ha, h3⟩ := h2 i hi
  obtain ⟨px, hpx, -, h4⟩ := h3 j hj
  refine ⟨c, d, i, j, h1, e1, ?_⟩
  have e1 := abs_le.mp e1
  have e2 := abs_le.mp (e2 a ha)
  obtain ⟨x, y, hl, -, h5⟩ := h4 ⟨by linarith [e2.1], by linarith [e2.2], by linarith [e1.1], by linarith [e1.2]⟩
  obtain ⟨l1, l2⟩ := hl.empty (by linarith [e2.2]) (by linarith [e1.2])
  rw [hpx, (h5 ⟨by omega, by omega⟩).1 (.inl (by rw [demo_empty l1 l2 (hsh x y (by omega) (by omega))]; rfl))]

/-- C152 is false: the catalogue's file of an hour has a cloud cover of 0 at a level and the point that is shown in a cell,
but the file that is written has no cloud cover there. -/
theorem C152_counterexample (m : Libm) (hm : AccurateRow m) (dirs : Text → Bool) (before : Tree) :
    ∃ (e : Environment) (web : Swiss.Web) (catalogue : List Item) (t : Instant) (tr : List Write) (i : Item)
      (covers : List Msg) (msg : Msg) (bytes : List UInt8),
    Meets e web catalogue "hor".toList "vert".toList latMsg lonMsg 4 t ∧ mainEffect e "icon-ch1".toList [] [] tr .done ∧
    i ∈ filesOf catalogue .clc t ∧ Delivers e.world i.href covers ∧ covers[31]? = some msg ∧ FullField msg 4 ∧
    before.write tr (binPath (runAt t) i.hours .verticalClouds) = some (.bytes bytes) ∧
    (∀ o, Spec.Shows (position latMsg lonMsg) 4 781 397 o → o = some 0) ∧ physical msg 0 = some 0 ∧
    bytes[((397 * 1851 + 781) * 49 + 0) * 2 + 1]? = some 255 := by
  have hk : weatherMsg.product.known := trivial
  have h := demo_meets weatherMsg_ok hk m dirs
  have hd := swiss_delivers weatherMsg_ok hk
  have hl : 80 ≤ (swissMsgs weatherMsg).length := by simp [swissMsgs]
  have hf : ∀ k msg, 31 ≤ k → k ≤ 79 → (swissMsgs weatherMsg)[k]? = some msg → PointField msg 4 :=
    fun k msg h _ e => by rw [swiss_levelMsg h e]; exact weatherMsg_full.toPointField
  obtain ⟨tr, ht⟩ := demo_success weatherMsg_ok hk weatherMsg_full m hm dirs [] []
  obtain ⟨bytes, b1, -, b3⟩ := C152_vertical_clouds_partial (webEnv m weatherMsg demoCatalogue dirs) (webOf demoCatalogue)
    demoCatalogue "hor".toList "vert".toList latMsg lonMsg 4 augustNoon h _ [] tr ht (.inl rfl) 2 (demo_hours _) _ (demo_hour1 _)
    (.inl rfl) _ _ (hd _) hl hf (hd _) hl hf before
  obtain ⟨o, hsh, hb⟩ := b3 781 397 (by norm_num) (by norm_num)
  obtain rfl := demo_shown hsh
  have p : physical weatherMsg 0 = some 0 := by decide +kernel
  obtain ⟨bh, bc, -, c1, -, -, -, c2⟩ := hb 0 _ _ (by norm_num) (swiss_first _) (swiss_first _)
  refine ⟨_, _, _, augustNoon, tr, _, swissMsgs weatherMsg, weatherMsg, bytes, h, ht, demo_hour1 _, hd _, swiss_first _,
    weatherMsg_full, b1, fun o => demo_shown, p, ?_⟩
  rw [c1, (c2 0 p).2 (by norm_num) (by norm_num)]

/-- The hypotheses of C152 can be met: a cover of 50 percent at a height of 50 m. -/
example (m : Libm) (hm : AccurateRow m) (dirs : Text → Bool) (before : Tree) : ∃ tr bytes,
    mainEffect (webEnv m galeMsg demoCatalogue dirs) "icon-ch1".toList [] [] tr .done ∧
    before.write tr (binPath ⟨.iconCh1, ⟨2025, 8, 25⟩, "12".toList⟩ 1 .verticalClouds) = some (.bytes bytes) ∧
    ∃ bc : UInt8, bytes[((397 * 1851 + 781) * 49 + 0) * 2 + 1]? = some bc ∧ 49 - 1 / 1000 ≤ (bc.toNat : Rat) ∧
      (bc.toNat : Rat) ≤ 50 + 1 / 1000 := by
  have hk : galeMsg.product.known := trivial
  have hd := swiss_delivers galeMsg_ok hk
  have hl : 80 ≤ (swissMsgs galeMsg).length := by simp [swissMsgs]
  have hf : ∀ k msg, 31 ≤ k → k ≤ 79 → (swissMsgs galeMsg)[k]? = some msg → PointField msg 4 :=
    fun k msg h _ e => by rw [swiss_levelMsg h e]; exact galeMsg_full.toPointField
  obtain ⟨tr, ht⟩ := demo_success galeMsg_ok hk galeMsg_full m hm dirs [] []
  obtain ⟨bytes, b1, -, b3⟩ := C152_vertical_clouds_partial (webEnv m galeMsg demoCatalogue dirs) (webOf demoCatalogue)
    demoCatalogue "hor".toList "vert".toList latMsg lonMsg 4 augustNoon (demo_meets galeMsg_ok hk m dirs) _ [] tr ht (.inl rfl) 2
    (demo_hours _) _ (demo_hour1 _) (.inl rfl) _ _ (hd _) hl hf (hd _) hl hf before
  obtain ⟨o, hsh, hb⟩ := b3 781 397 (by norm_num) (by norm_num)
  obtain rfl := demo_shown hsh
  have p : physical galeMsg 0 = some 50 := by decide +kernel
  obtain ⟨bh, bc, -, c1, -, -, -, c2⟩ := hb 0 _ _ (by norm_num) (swiss_first _) (swiss_first _)
  obtain ⟨-, d1, d2⟩ := (c2 50 p).1 (by norm_num) (by norm_num)
  rw [demo_run] at b1
  exact ⟨tr, bytes, ht, b1, bc, c1, by linarith, d2⟩

/-- The hypotheses of C152 can be met, and those of the tiles: every needed tile is written for hour 1. -/
example (dirs : Text → Bool) (before : Tree) : ∃ m tr,
    mainEffect (webEnv m galeMsg demoCatalogue dirs) "icon-ch1".toList [] [] tr .done ∧
    ∃ (c : MapTileCoord) (d : Drawable),
      before.write tr (tilePath (outputPath ⟨.iconCh1, ⟨2025, 8, 25⟩, "12".toList⟩ 1 .cloudPrecip) c) = some (.picture d) ∧
      d.width = 256 ∧ d.height = 256 := by
  obtain ⟨m, hacc, hm⟩ := exists_both
  have hk : galeMsg.product.known := trivial
  have hd := swiss_delivers galeMsg_ok hk
  have hf := galeMsg_full.toPointField
  have p4 : ∀ i < 4, physical galeMsg i = some 50 := by decide +kernel
  have bd : ∀ (B : Rat), 50 ≤ B → ∀ i q, i < 4 → physical galeMsg i = some q → 0 ≤ q ∧ q ≤ B := by
    intro B hB i q hi hq
    rw [p4 i hi] at hq
    cases hq
    exact ⟨by norm_num, hB⟩
  obtain ⟨tr, ht⟩ := demo_success galeMsg_ok hk galeMsg_full m hm dirs [] []
  obtain ⟨point, -, main⟩ := C152_cloud_precip_tiles_partial (webEnv m galeMsg demoCatalogue dirs) hacc (webOf demoCatalogue)
    demoCatalogue "hor".toList "vert".toList latMsg lonMsg 4 augustNoon (demo_meets galeMsg_ok hk m dirs) [] [] tr ht (.inl rfl)
    2 2 (demo_hours _) (demo_hours _) _ _ _ (demo_hour1 _) (demo_hour0 _) (demo_hour1 _) rfl rfl
    (.inl rfl) galeMsg galeMsg galeMsg _ _ _ (hd _) hf (hd _) hf (hd _) hf (bd 100 (by norm_num)) (bd 1000 (by norm_num))
    (bd 1000 (by norm_num)) before
  obtain ⟨c, hn, hx, hy, -⟩ := swiss_place hm (lat0 := 445 / 10) (lon0 := 5) (by norm_num) (by norm_num)
    (by norm_num) (by norm_num)
  obtain ⟨d, h1, h2, h3, -⟩ := main c hn hx hy
  rw [demo_run] at h1
  exact ⟨m, tr, ht, c, d, h1, h2, h3⟩

end Verif.Props
