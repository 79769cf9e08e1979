import Verif.Props.Sums
import Verif.Props.Servers

/-!
# Further examples that meet the hypotheses of theorems
-/

namespace Verif.Props

open Verif MapTileRenderer Dwd
open Verif.Spec (Searches Item filesOf runMarkers NewestRun AccurateRow exists_accurateRow)
open Verif.Spec.Grib2 (Msg encode)

/-- C32: a run for the zoom levels 0 to 7 that ends normally, and saves the tile of zoom level 0. -/
example : ∃ trace, runAllTiles demoLibm demoExtent (0, 7) (fun _ => .ok (some (⟨0, 0, 0, 255⟩ : Color))) id trace .done ∧
    (⟨0, 0, 0⟩ : MapTileCoord) ∈ trace.map Saved.tile := by
  obtain ⟨tr, h⟩ := C32_exists demoLibm demoExtent (0, 7) (by decide) (fun _ => .ok (some (⟨0, 0, 0, 255⟩ : Color))) id
    (tile_ok (by decide) demo_inRange _ (fun _ => ⟨_, rfl⟩) id)
  refine ⟨tr, h, ((C32_exactly_once _ _ _ _ _ _ h).2.1 _).mpr ?_⟩
  exact ⟨by decide, by decide, _, _, rfl, rfl, by decide +kernel⟩

/-- C93: 2 mm fall in hour 4. -/
example (dirs : Text → Bool) (before : Tree) : ∃ (m : Libm) (tr : List Write) (bytes : List UInt8) (b : UInt8),
    Dwd.renderRun m rainWorld dirs [] [4] rainRun tr .done ∧
    before.write tr (binPath rainRun 4 .precip) = some (.bytes bytes) ∧ bytes[0]? = some b ∧
    |(b.toNat : Rat) / 2 - 2| ≤ 1 / 4 + 2 / 1000 := by
  obtain ⟨m, hm⟩ := exists_accurateRow
  obtain ⟨tr, h⟩ := (C105_run m hm rainWorld dirs [] [4] rainRun rain_usual.1 demoArea demoArea_valid 2 2
    (fun _ _ _ _ _ r _ => rain_area r) fun _ k _ _ => rain_area _).1
  obtain ⟨bytes, b1, -, b3⟩ := C93_precipitation m rainWorld dirs [] [4] rainRun rain_usual.1 (by decide) tr h (.inl rfl)
    ⟨4, []⟩ (by decide +kernel) (.inr (by simp)) weatherMsg weatherMsg wetMsg 2 2 (rain_other (by simp)) weatherMsg_field
    (rain_other (by simp)) weatherMsg_field rain_wet wetMsg_field before
  obtain ⟨b, hb, -, -, e⟩ := b3 0 0 (by omega) (by omega) 0 2 (by decide +kernel) (by decide +kernel) (by norm_num)
    (by norm_num) (by norm_num) (by norm_num)
  refine ⟨m, tr, bytes, b, h, b1, hb, ?_⟩
  have := e (.inr (by norm_num))
  rwa [sub_zero] at this

/-- C97: both components are 3 m/s at the third point, and missing at the second one. -/
example (dirs : Text → Bool) (before : Tree) : ∃ (tr : List Write) (bytes : List UInt8),
    Dwd.renderRun demoLibm (constWorld weatherMsg) dirs [] [] demoRun tr .done ∧
    before.write tr (binPath demoRun 3 .verticalWind) = some (.bytes bytes) ∧ bytes.length = 492 ∧
    bytes[124]? = some 255 ∧ (∃ b, bytes[247]? = some b ∧ |(b.toNat : Rat) - 128 - 3 * (194384 / 100000)| ≤ 1 / 2 + 2 / 100) := by
  obtain ⟨tr, h⟩ := demo_all dirs
  have pub : ∀ r, Publishes (constWorld weatherMsg) demoRun r weatherMsg ∧ Field weatherMsg 2 2 := fun r =>
    ⟨constWorld_publishes weatherMsg_ok trivial demoRun_dwd r, weatherMsg_field⟩
  obtain ⟨bytes, b1, b2, b3⟩ := C97_wind demoLibm (constWorld weatherMsg) dirs [] [] demoRun demoRun_dwd demoRun_name tr h (.inl rfl)
    ⟨3, []⟩ step3 (.inl rfl) (fun _ => weatherMsg) (fun _ => weatherMsg) (fun _ => weatherMsg) 2 2 25 65 rfl
    (fun k _ _ => pub _) (fun k _ _ => pub _) (fun k _ _ => pub _) before
  refine ⟨tr, bytes, h, b1, b2, ?_, ?_⟩
  · obtain ⟨bh, bu, bv, -, e, -, -, -, i, -, -⟩ := b3 1 0 25 (by omega) (by omega) (by omega) (by omega)
    rw [i.mpr (.inl (by decide +kernel))] at e
    exact e
  · obtain ⟨bh, bu, bv, -, e, -, -, -, -, -, i⟩ := b3 0 1 25 (by omega) (by omega) (by omega) (by omega)
    exact ⟨bu, e, (i 3 3 (by decide +kernel) (by decide +kernel)).1 (by norm_num)⟩

/-- C111, C112: a catalogue with the hours 0 and 1 of all variables. The newest run is the one at noon; with the first step
skipped, the file of hour 1 is the only step of the temperature. -/
example : ∃ texts steps, (webOf demoCatalogue).service.refTimes = .ok texts ∧
    SwissSearch.findLatest Swiss.chrono.parse texts = .ok augustNoon ∧
    Swiss.steps (webOf demoCatalogue).service augustNoon .t2m true = .ok steps ∧
    ∀ k url, (⟨k, url⟩ : RunStep) ∈ steps ↔ k = 1 ∧ url = "b".toList := by
  have d := demo_meets warmMsg_ok trivial demoLibm fun _ => false
  obtain ⟨texts, h1, h2⟩ := C111_newest _ _ d.searches d.wellFormed d.ordered _ d.newest
  obtain ⟨steps, h3, h4⟩ := C112_steps _ _ d.searches d.wellFormed .t2m augustNoon augustNoon_usual augustNoon_run 2
    (by rw [demo_files]; exact List.Perm.swap 0 1 []) true
  refine ⟨texts, steps, h1, h2, h3, fun k url => ?_⟩
  rw [h4, demo_files]
  constructor
  · rintro ⟨hk, i, hi, rfl, rfl⟩
    simp only [List.mem_cons, List.not_mem_nil, or_false] at hi
    rcases hi with rfl | rfl
    · exact ⟨rfl, rfl⟩
    · exact absurd (hk rfl) (by decide)
  · rintro ⟨rfl, rfl⟩
    exact ⟨fun _ => le_refl _, _, List.mem_cons_self, rfl, rfl⟩

end Verif.Props
