import Verif.Model.Small
import Verif.Model.Physics

/-!
# The project's own unit tests, replayed: geo and physics

Every `example` below is one test of the project, with the inputs and the expected results of the test; the expressions
are the model's.  These are tests of the model, not claims about the code: they show that the model answers what the
authors of the code expect from it.  `assert_approx_eq!` becomes a bound on the exact difference.
-/

namespace Verif.Conformance

open Verif

/-- A literal of type `f32`. -/
local notation "#" q => lit q

/-- `assert_approx_eq!(a, b, eps)` for finite values. -/
def near (x : Fl) (q eps : Rat) : Bool :=
  match x with
  | .fin r => decide (r - q < eps) && decide (q - r < eps)
  | _ => false

/-! ## `src/geo/common/lat_lon.rs` -/

/-- `it_creates_an_instance` -/
example : LatLon.new (#60.5) (#(-40.1)) = ⟨#60.5, #(-40.1)⟩ := by decide +kernel

/-- `it_always_creates_angle_values_between_m180_and_p180` -/
example : LatLon.new (#60.5) (#(-40.1)) = ⟨#60.5, #(-40.1)⟩ ∧ LatLon.new (#360.5) (#270) = ⟨#0.5, #(-90)⟩ ∧
    LatLon.new (#360) (#(-720)) = ⟨#0, #0⟩ := by decide +kernel

/-- `it_clones_a_value`, `it_clones_the_min_max_coords`: equality of a coordinate with itself -/
example : LatLon.eq (LatLon.new (#60.5) (#(-40.1))) (LatLon.new (#60.5) (#(-40.1))) = true ∧
    LatLon.eq LatLon.minCoord LatLon.minCoord = true ∧ LatLon.eq LatLon.maxCoord LatLon.maxCoord = true := by
  decide +kernel

/-! ## `src/geo/common/lat_lon_extent.rs` -/

/-- `it_creates_a_new_extent` -/
example : LatLonExtent.new (.new (#0) (#0)) (.new (#45) (#90)) =
    .ok ⟨.new (#0) (#0), .new (#45) (#90)⟩ := by decide +kernel

/-- `it_panics_if_min_coord_is_larger_than_max_coord` and the two after it -/
example : LatLonExtent.new (.new (#45) (#90)) (.new (#0) (#0)) = .panic ∧
    LatLonExtent.new (.new (#45) (#0)) (.new (#0) (#90)) = .panic ∧
    LatLonExtent.new (.new (#0) (#90)) (.new (#45) (#0)) = .panic := by decide +kernel

/-- `it_clones_an_extent`, `it_clones_a_max_extent` -/
example : (LatLonExtent.new (.new (#(-10)) (#20)) (.new (#45) (#90))).bind (fun e => .ok (LatLonExtent.eq e e)) = .ok true ∧
    LatLonExtent.eq LatLonExtent.maxExtent LatLonExtent.maxExtent = true := by decide +kernel

/-- `it_calculates_the_midpoint` -/
example : LatLonExtent.maxExtent.calcMidpoint = LatLon.new (#0) (#0) := by decide +kernel

/-- `it_checks_if_a_point_is_inside` -/
example : (LatLonExtent.new (.new (#(-10)) (#(-20))) (.new (#30) (#40))).bind (fun e =>
      .ok (e.isInside (.new (#0) (#0)), e.isInside (.new (#(-20)) (#0)))) = .ok (true, false) := by decide +kernel

/-- `it_calculates_min_bounding_extent` -/
example : LatLonExtent.calcMinBoundingExtent [.new (#40) (#7), .new (#50) (#6), .new (#45) (#9)] =
    .ok ⟨.new (#40) (#6), .new (#50) (#9)⟩ := by decide +kernel

/-! ## `src/geo/grid/coord_dist.rs`, `src/geo/grid/coord_dist_triple.rs` -/

/-- `it_creates_a_new_instance` -/
example : (CoordDist.mk 5 (#100)).coordIndex = 5 ∧ (CoordDist.mk 5 (#100)).coordDistSquared = #100 := by decide +kernel

/-- `it_creates_a_new_instance_which_is_empty` -/
example : ∀ i ∈ [0, 1, 2, 3], CoordDistTriple.new.getCoordDist i = none := by decide +kernel

/-- `it_adds_a_single_coord_dist` -/
example :
    let t := CoordDistTriple.new.addCoordDist ⟨0, #100⟩
    (t.getCoordDist 0).isSome ∧ t.getCoordDist 1 = none ∧ t.getCoordDist 2 = none ∧ t.getCoordDists.length = 1 := by
  decide +kernel

/-- `it_adds_coord_dist_and_replaces_highest_distance` -/
example :
    let t := (((CoordDistTriple.new.addCoordDist ⟨0, #100⟩).addCoordDist ⟨1, #25⟩).addCoordDist ⟨2, #225⟩).addCoordDist
      ⟨3, #64⟩
    (t.getCoordDist 0).map (·.coordIndex) = some 0 ∧ (t.getCoordDist 1).map (·.coordIndex) = some 1 ∧
      (t.getCoordDist 2).map (·.coordIndex) = some 3 := by decide +kernel

/-! ## `src/geo/grid/lat_lon_grid.rs` -/

/-- `create_test_grid` -/
def testGrid : LatLonGrid := LatLonGrid.new (2, 3) ⟨.new (#40) (#7), .new (#46) (#9)⟩

/-- The extent of the test grid is one that the constructor accepts. -/
example : LatLonExtent.new (.new (#40) (#7)) (.new (#46) (#9)) = .ok testGrid.extent := by decide +kernel

/-- `it_creates_a_new_instance_with_the_correct_lat_lon_incs` -/
example : testGrid.latInc = (#2) ∧ testGrid.lonInc = (#1) := by decide +kernel

/-- `it_gets_the_correct_dimensions`, `it_gets_the_correct_lat_lon_extent` -/
example : testGrid.dimensions = (2, 3) ∧ testGrid.extent.minCoord.asArray = [#40, #7] ∧
    testGrid.extent.maxCoord.asArray = [#46, #9] := by decide +kernel

/-- `it_gets_the_correct_index_by_x_y`, `it_gets_none_index_if_x_y_are_out_of_bounds` -/
example : testGrid.getIndexByXY 0 0 = .ok (some 0) ∧ testGrid.getIndexByXY 1 0 = .ok (some 1) ∧
    testGrid.getIndexByXY 0 1 = .ok (some 2) ∧ testGrid.getIndexByXY 1 2 = .ok (some 5) ∧
    testGrid.getIndexByXY 2 0 = .ok none ∧ testGrid.getIndexByXY 0 3 = .ok none := by decide +kernel

/-- `it_gets_the_correct_x_y_by_lat_lon` -/
example : testGrid.getXYByLatLon (.new (#40) (#7)) = some (#0, #0) ∧
    testGrid.getXYByLatLon (.new (#42) (#7)) = some (#0, #1) ∧
    testGrid.getXYByLatLon (.new (#40) (#8)) = some (#1, #0) ∧
    testGrid.getXYByLatLon (.new (#44) (#8)) = some (#1, #2) ∧
    (testGrid.getXYByLatLon (.new (#45.9) (#8.9))).any (fun p => near p.1 1.90 0.01 && near p.2 2.95 0.01) = true := by
  decide +kernel

/-- `it_gets_none_if_lat_or_lon_are_out_of_bounds` -/
example : testGrid.getXYByLatLon (.new (#40) (#6.9)) = none ∧ testGrid.getXYByLatLon (.new (#39.9) (#7)) = none ∧
    testGrid.getXYByLatLon (.new (#43) (#9.1)) = none ∧ testGrid.getXYByLatLon (.new (#46.1) (#8)) = none ∧
    testGrid.getXYByLatLon (.new (#46) (#8)) = none := by decide +kernel

/-- `it_gets_the_correct_lat_lon_by_x_y` -/
example : testGrid.getLatLonByXY (#0) (#0) = some (.new (#40) (#7)) ∧
    testGrid.getLatLonByXY (#1) (#0) = some (.new (#40) (#8)) ∧
    testGrid.getLatLonByXY (#0) (#1) = some (.new (#42) (#7)) ∧
    testGrid.getLatLonByXY (#1) (#2) = some (.new (#44) (#8)) ∧
    (testGrid.getLatLonByXY (#0.5) (#0.5)).any (fun p => near p.lat 41 0.01 && near p.lon 7.5 0.01) = true := by
  decide +kernel

/-- `it_gets_none_if_x_y_are_out_of_bounds` -/
example : testGrid.getLatLonByXY (#2) (#0) = none ∧ testGrid.getLatLonByXY (#0) (#3) = none := by decide +kernel

/-! ## `src/geo/grid/lat_lon_value_grid.rs`, `src/geo/grid/lat_lon_value_grid_interpolator.rs` -/

/-- `create_test_grid` (the same in both files) -/
def testValueGrid : LatLonValueGrid Fl :=
  LatLonValueGrid.new [#0, #1, #10, #11, #(-1), #21] (#(-1)) (2, 3) testGrid.extent

/-- `it_gets_the_correct_x_y_value` (of both files) -/
example : testValueGrid.getValueByXY 0 0 = .ok (some (#0)) ∧ testValueGrid.getValueByXY 1 0 = .ok (some (#1)) ∧
    testValueGrid.getValueByXY 1 2 = .ok (some (#21)) := by decide +kernel

/-- `it_gets_none_if_x_or_y_are_out_of_bounds`, `it_gets_none_for_missing_values` -/
example : testValueGrid.getValueByXY 2 0 = .ok none ∧ testValueGrid.getValueByXY 0 3 = .ok none ∧
    testValueGrid.getValueByXY 0 2 = .ok none := by decide +kernel

/-- `it_gets_the_correct_lat_lon_value` -/
example : testValueGrid.getValueByLatLon (.new (#40) (#7)) = .ok (some (#0)) ∧
    testValueGrid.getValueByLatLon (.new (#42) (#7)) = .ok (some (#10)) ∧
    testValueGrid.getValueByLatLon (.new (#44) (#8)) = .ok (some (#21)) ∧
    testValueGrid.getValueByLatLon (.new (#44.9) (#8.4)) = .ok (some (#21)) := by decide +kernel

/-- `it_gets_none_if_lat_or_lon_are_out_of_bounds` -/
example : testValueGrid.getValueByLatLon (.new (#40) (#6.9)) = .ok none ∧
    testValueGrid.getValueByLatLon (.new (#39.9) (#7)) = .ok none ∧
    testValueGrid.getValueByLatLon (.new (#43) (#9.1)) = .ok none ∧
    testValueGrid.getValueByLatLon (.new (#46.1) (#8)) = .ok none ∧
    testValueGrid.getValueByLatLon (.new (#45.5) (#8.5)) = .ok none := by decide +kernel

/-! ## `src/geo/grid/unstructured_grid1.rs` -/

/-- `it_creates_a_new_instance` -/
example : (UnstructuredGrid1.new (2, 3) LatLonExtent.maxExtent
      [.new (#40) (#7), .new (#41) (#7), .new (#42) (#7)]).bind (fun g =>
      .ok (g.latLonGrid.dimensions, g.coordinates.length, LatLonExtent.eq g.latLonGrid.extent LatLonExtent.maxExtent,
        g.coordDistLookupMap.length, g.coordDistLookupMap.all fun t =>
          [0, 1, 2].all fun i => (t.getCoordDist i).isNone)) = .ok ((2, 3), 3, true, 6, true) := by decide +kernel

/-- The lookup map of `it_calculates_coord_dist_lookup_map_for_one_coordinate` -/
def oneCoordinate : Res (List CoordDistTriple) :=
  (UnstructuredGrid1.new (5, 5) ⟨.new (#0) (#0), .new (#50) (#50)⟩ [.new (#25) (#25)]).bind fun g =>
    (g.calcCoordDistLookupMap (#15)).bind fun g => .ok g.coordDistLookupMap

/-- `it_calculates_coord_dist_lookup_map_for_one_coordinate`: the cells without an entry and the cells with exactly one,
of index 0 -/
example : oneCoordinate.bind (fun m => .ok
      (([0, 1, 2, 3, 4, 5, 9, 10, 14, 15, 19, 20, 21, 22, 23, 24].all fun i =>
          (m[i]?).any fun t => [0, 1, 2].all fun j => (t.getCoordDist j).isNone),
        ([6, 7, 8, 11, 12, 13, 16, 17, 18].all fun i =>
          (m[i]?).any fun t => (t.getCoordDist 0).any (·.coordIndex == 0) && (t.getCoordDist 1).isNone &&
            (t.getCoordDist 2).isNone))) = .ok (true, true) := by decide +kernel

/-- The last assertion of that test, `dist.get_coord_dist_squared() <= max_dist`, compares a squared distance with the
distance 15 itself.  In the model it does not hold for the eight cells around the coordinate (their squared distances
are 100 and 200); the comparison with the square of 15 holds.  By reading the code the same is true of the program:
cells are accepted against the square (`src/geo/grid/unstructured_grid1.rs` 58, 83). -/
example : oneCoordinate.bind (fun m => .ok ([6, 7, 8, 11, 12, 13, 16, 17, 18].map fun i =>
      (m[i]?).bind fun t => (t.getCoordDist 0).map (·.coordDistSquared))) =
    .ok [some (#200), some (#100), some (#200), some (#100), some (#0), some (#100), some (#200), some (#100),
      some (#200)] := by decide +kernel

/-! ## `src/physics` -/

/-- `length.rs`: `it_converts_from_meters_to_feet`, `it_converts_from_feet_to_meters` -/
example : near (Physics.metersToFeet (#10)) 32.8084 0.0001 = true ∧
    near (Physics.feetToMeters (#10)) 3.048 0.0001 = true := by decide +kernel

/-- `speed.rs`: `it_converts_from_mps_to_knots`, `it_converts_from_knots_to_mps` -/
example : near (Physics.mpsToKnots (#10)) 19.4384 0.0001 = true ∧
    near (Physics.knotsToMps (#10)) 5.14444 0.0001 = true := by decide +kernel

/-- `temperature.rs`: `it_converts_from_kelvin_to_celsius`, `it_converts_from_celsius_to_kelvin` -/
example : near (Physics.kelvinToCelsius (#300)) 26.85 0.01 = true ∧
    near (Physics.celsiusToKelvin (#26.85)) 300 0.01 = true := by decide +kernel

end Verif.Conformance
