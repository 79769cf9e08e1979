import Verif.Props.EndToEndSwiss
import Verif.Props.Rows
import Verif.Props.Swiss

/-!
# C104: a MeteoSwiss run that is published completely is rendered
-/

namespace Verif.Props

open Verif MapTileRenderer
open Verif.Spec (Filled AccurateRow)
open Verif.Spec.Grib2 (Msg encode)
open Verif.Spec.Decode (rank bitmapCovers)

/-! ## What is published -/

/-- The message holds values for `n` points, and none of the values is lacking in the data section. -/
structure FullField (msg : Msg) (n : Nat) : Prop extends PointField msg n where
  covered : bitmapCovers msg.bitmap n
  enough : rank msg.bitmap n ≤ msg.data.length

/-- The file begins with a message for `n` points. -/
def SingleFile (w : World) (n : Nat) (url : Text) : Prop :=
  ∃ msg more, Delivers w url (msg :: more) ∧ FullField msg n

/-- The file has at least 80 messages, the last 49 of the first 80 for `n` points. -/
def LevelFile (w : World) (n : Nat) (url : Text) : Prop :=
  ∃ msgs, Delivers w url msgs ∧ 80 ≤ msgs.length ∧ ∀ k msg, 31 ≤ k → k ≤ 79 → msgs[k]? = some msg → FullField msg n

/-- The answer to the search for a variable has `count` entries, each with a horizon of at most 255 hours and a link;
the files that are linked are of the given kind. -/
def Listed (s : Swiss.Service) (t : Instant) (count : Nat) (file : Text → Prop) (x : Swiss.Variable) : Prop :=
  ∃ fs, s.search x t = .ok fs ∧ fs.length = count ∧ ∀ f ∈ fs,
    (∃ h, Horizon.fromStr f.horizon = .ok h ∧ 24 * h.days.toNat + h.hours.toNat < 256) ∧ f.hrefs ≠ [] ∧
    ∀ url ∈ f.hrefs, file url

/-- Everything that is needed for a variable is published. -/
def VariablePublished (w : World) (s : Swiss.Service) (vertUrl : Text) (t : Instant) (n count : Nat) : LayerType → Prop
  | .cloudPrecip => ∀ x ∈ [Swiss.Variable.clct, .totPrec, .ceiling], Listed s t count (SingleFile w n) x
  | .wind10m => ∀ x ∈ [Swiss.Variable.u10m, .v10m, .vmax10m], Listed s t count (SingleFile w n) x
  | .temp2m => Listed s t count (SingleFile w n) .t2m
  | .verticalCloud => LevelFile w n vertUrl ∧ Listed s t count (LevelFile w n) .clc
  | .verticalWind => LevelFile w n vertUrl ∧ ∀ x ∈ [Swiss.Variable.u, .v], Listed s t count (LevelFile w n) x
  | .weather => True

/-! ## Lists of files -/

theorem listed_steps {s : Swiss.Service} {t : Instant} {count : Nat} {file : Text → Prop} {x : Swiss.Variable}
    (h : Listed s t count file x) (skip : Bool) :
    ∃ steps, Swiss.steps s t x skip = .ok steps ∧ (∀ st ∈ steps, st.nr < count ∧ (skip = true → 1 ≤ st.nr) ∧ file st.url) ∧
      ∀ k, k < count → (skip = true → 1 ≤ k) → ∃ st ∈ steps, st.nr = k := by
  obtain ⟨fs, h1, h2, h3⟩ := h
  obtain ⟨files, sorted, f1, f2, f3⟩ := SwissSearch.C49_files fs
    (fun f hf => ⟨(h3 f hf).1.imp fun _ h => h.1, (h3 f hf).2.1⟩) (by
      intro f hf h e
      obtain ⟨⟨h', e', hl⟩, -⟩ := h3 f hf
      rw [e] at e'
      cases e'
      exact hl)
  have hlen : sorted.length = count := by rw [f3.perm.length_eq, f1.length_eq, h2]
  have hfile : ∀ st ∈ sorted, file st.href := by
    intro st hst
    have hst := f3.perm.mem_iff.mp hst
    obtain ⟨i, hi⟩ := List.mem_iff_getElem?.mp hst
    obtain ⟨hi', rfl⟩ := List.getElem?_eq_some_iff.mp hi
    have hi2 : i < fs.length := by rw [← f1.length_eq]; exact hi'
    have := (List.forall₂_iff_get.mp f1).2 i hi' hi2
    exact (h3 _ (List.get_mem fs ⟨i, hi2⟩)).2.2 _ (List.mem_of_mem_head? this.2.2)
  refine ⟨SwissSearch.runSteps sorted skip, ?_, ?_, ?_⟩
  · unfold Swiss.steps
    rw [h1, Res.bind_ok, f2, Res.bind_ok]
  · intro st hst
    obtain ⟨f, e1, e2, e3⟩ := (SwissSearch.mem_runSteps sorted skip st).mp hst
    refine ⟨?_, e3, ?_⟩
    · rw [← hlen]
      exact (List.getElem?_eq_some_iff.mp e1).1
    · rw [e2]
      exact hfile f (List.mem_of_getElem? e1)
  · intro k hk hs
    have hk' : k < sorted.length := by omega
    exact ⟨⟨k, sorted[k].href⟩, (SwissSearch.mem_runSteps sorted skip _).mpr
      ⟨sorted[k], List.getElem?_eq_getElem hk', rfl, hs⟩, rfl⟩

/-- The step with a given number can be found. -/
theorem listed_get {s : Swiss.Service} {t : Instant} {count : Nat} {file : Text → Prop} {x : Swiss.Variable}
    (h : Listed s t count file x) {skip : Bool} {steps : List RunStep} (hs : Swiss.steps s t x skip = .ok steps) {k : Nat}
    (hk : k < count) (h1 : skip = true → 1 ≤ k) : ∃ st, getStepByNr steps k = .ok st ∧ file st.url := by
  obtain ⟨steps', e, a, b⟩ := listed_steps h skip
  rw [hs] at e
  cases e
  obtain ⟨st, hst, e⟩ := b k hk h1
  exact ⟨st, getStep_of_mem (steps_numbered hs) hst e, (a st hst).2.2⟩

/-! ## Reading -/

theorem full_values {T : Type} {msg : Msg} {n : Nat} (h : FullField msg n) (missing : T) (f : Fl → T) :
    ∃ vs, Grib2.calculateDataPoints msg.doc missing f = .ok vs := by
  obtain ⟨ref, r, E, D, bits, typ, hpk, -⟩ := h.packing
  have ht5 : msg.doc.section5.template = .simplePacking ⟨ref.value, E, D, bits, typ⟩ := by
    show Spec.Grib2.packingDoc msg.packing = _
    rw [hpk]; rfl
  refine (C08_safe_iff msg.doc _ missing f ht5 h.data).1 ?_
  have hn : msg.doc.section3.numberOfDatapoints = n := h.points
  rw [hn]
  exact ⟨h.covered, h.enough⟩

/-- Grids on the chart of Switzerland. -/
structure OnChart {T : Type} (G : LatLonValueGrid T) : Prop where
  filled : Filled G 1851 847
  extent : G.grid.extent = swissGrid.extent

theorem OnChart.fit {S T : Type} {a : LatLonValueGrid S} {b : LatLonValueGrid T} (ha : OnChart a) (hb : OnChart b) :
    Fit a b := by
  refine ⟨ha.filled.dims.trans hb.filled.dims.symm, ha.extent.trans hb.extent.symm, ?_, ?_, ?_, ?_⟩ <;>
    rw [ha.extent] <;> (show Fl.fin _ ≠ Fl.nan; simp)

theorem full_convert {T : Type} {grid : UnstructuredGrid} {lat lon msg : Msg} {n : Nat} (hg : Placed grid lat lon n)
    (hf : FullField msg n) (missing : T) (f : Fl → T) :
    ∃ G, Grib2.convertUnstructured missing f grid msg.doc = .ok G ∧ OnChart G := by
  obtain ⟨vs, hvs⟩ := full_values hf missing f
  obtain ⟨r, e, r1, r2, -, r4, -⟩ := C25_regrid (⟨grid, vs, missing⟩ : UnstructuredValueGrid T) hg.sized
  have hdim : grid.latLonGrid.dimensions = (1851, 847) := by rw [hg.regular]; rfl
  simp only [hdim] at r1 r4
  refine ⟨r, ?_, ⟨r1, by norm_num, r4⟩, by rw [r2]; simp only [hg.regular]⟩
  unfold Grib2.convertUnstructured
  rw [hvs, Res.bind_ok, e, Res.bind_ok]

theorem single_read {w : World} {grid : UnstructuredGrid} {lat lon : Msg} {n : Nat} (hg : Placed grid lat lon n)
    {st : RunStep} (h : SingleFile w n st.url) (f : Fl → Fl) : ∃ G, Swiss.readGrid w grid f st = .ok G ∧ OnChart G := by
  obtain ⟨msg, more, hd, hf⟩ := h
  unfold Swiss.readGrid World.readUnstructured
  rw [hd.readFirst, Res.bind_ok]
  exact full_convert hg hf _ f

theorem levels_read {w : World} {grid : UnstructuredGrid} {lat lon : Msg} {n : Nat} (hg : Placed grid lat lon n)
    {url : Text} (h : LevelFile w n url) (missing : UInt8) (f : Fl → UInt8) :
    ∃ gs, w.readMultiUnstructured url missing f grid (some Swiss.levels) = .ok gs ∧ gs.length = 49 ∧
      ∀ g ∈ gs, Filled g 1851 847 := by
  obtain ⟨msgs, hd, hlen, hf⟩ := h
  unfold World.readMultiUnstructured
  rw [hd.read (by rintro rfl; simp at hlen), Res.bind_ok]
  have each : ∀ k : Fin 49, ∃ G, Grib2.convertUnstructured missing f grid (msgs[31 + (k : Nat)]'(by omega)).doc = .ok G ∧
      OnChart G := fun k => full_convert hg (hf (31 + k) _ (by omega) (by omega) (List.getElem?_eq_getElem (by omega))) _ f
  choose G hG using each
  refine ⟨List.ofFn G, ?_, by simp, ?_⟩
  · show Grib2.convertMulti _ _ _ _ (some (31, 79)) = _
    rw [C14_result]
    refine ⟨by rw [List.length_ofFn, List.length_map]; omega, fun k g hk => ?_⟩
    rw [List.getElem?_ofFn] at hk
    split at hk
    · next hlt =>
      cases hk
      refine ⟨_, ?_, (hG ⟨k, hlt⟩).1⟩
      rw [List.getElem?_map, List.getElem?_eq_getElem (by omega)]
      rfl
    · cases hk
  · intro g hg'
    obtain ⟨i, rfl⟩ := (List.mem_ofFn' _ _).mp hg'
    exact (hG i).2.filled

/-- The constants can be read. -/
theorem hor_read {w : World} {url : Text} {lat lon : Msg} {n : Nat} (hc : Constants w url lat lon n)
    (fl : FullField lat n) (fn : FullField lon n) : ∃ grid, Swiss.readHorConst w url = .ok grid := by
  obtain ⟨msgs, hd, h4, h3⟩ := hc.there
  obtain ⟨lats, e1⟩ := full_values fl (.fin 255) id
  obtain ⟨lons, e2⟩ := full_values fn (.fin 255) id
  have ol := (hd.ok lat (List.mem_of_getElem? h4)).1
  have on := (hd.ok lon (List.mem_of_getElem? h3)).1
  have hcs : Grib2.getLatLonValues lat.doc lon.doc = .ok (List.zipWith LatLon.new lats lons) := by
    unfold Grib2.getLatLonValues
    obtain ⟨l1, -⟩ := values_of_field ol fl.toPointField e1
    obtain ⟨l2, -⟩ := values_of_field on fn.toPointField e2
    rw [e1, Res.bind_ok, e2, Res.bind_ok, if_neg (by omega), if_neg (by omega)]
  obtain ⟨pts, -, hp, -, -⟩ := swiss_points ol on hc.latField hc.lonField hc.lats hc.lons hcs
  obtain ⟨g0, g, e0, e1, -⟩ := C23_nearest 1851 847 (by decide) (by decide) (by decide)
    (finExtent (1377239 / 32768) (-13589545 / 16777216) (101 / 2) (4639949 / 262144))
    (pts.map fun c => ⟨.fin c.1, .fin c.2⟩) (by
      intro c hm
      obtain ⟨c', -, rfl⟩ := List.mem_map.1 hm
      exact ⟨_, _, rfl⟩) (.fin (5368709 / 536870912)) (by rw [Fl.mul_fin]; exact rnd_ne_nan _ _)
  refine ⟨g, ?_⟩
  unfold Swiss.readHorConst
  rw [hd.read (by rintro rfl; simp at h4), Res.bind_ok]
  have i4 : Res.index (msgs.map Msg.doc) 4 = .ok lat.doc := by simp only [Res.index, List.getElem?_map, h4, Option.map_some]
  have i3 : Res.index (msgs.map Msg.doc) 3 = .ok lon.doc := by simp only [Res.index, List.getElem?_map, h3, Option.map_some]
  have : Swiss.gridDims = (1851, 847) := rfl
  rw [i4, Res.bind_ok, i3, Res.bind_ok, swiss_extent, Res.bind_ok, hcs, Res.bind_ok, hp, this, e0, Res.bind_ok, swiss_maxDist, e1]

/-! ## Rendering -/

theorem swiss_inRange {m : Libm} (hm : AccurateRow m) : InRange m swissGrid.extent FcModel.iconCh1.zoomRange :=
  inRange_north (a := 1377239 / 32768) (b := 101 / 2) hm (by decide) (by decide +kernel) (by decide +kernel) rfl rfl
    (by norm_num) (by norm_num) (by norm_num) (by norm_num)

theorem forecastRun_model {cal : Swiss.Calendar} {t : Instant} {run : Run} (h : Swiss.forecastRun cal t = .ok run) :
    run.model = .iconCh1 := by
  unfold Swiss.forecastRun at h
  obtain ⟨_, _, h⟩ := bind_ok' h
  cases h
  rfl

/-- C104: if the constants are there and, for every variable that is selected, all file lists have the same number of
entries and all files listed are there, then rendering the run succeeds, under every schedule. -/
theorem C104_run (m : Libm) (hm : AccurateRow m) (w : World) (s : Swiss.Service) (cal : Swiss.Calendar)
    (dirs : Text → Bool) (vars : List Text) (filter : List Nat) (hor vertUrl : Text) (t : Instant) (lat lon : Msg) (n : Nat)
    (hk : Constants w hor lat lon n) (grid : UnstructuredGrid) (hg : Swiss.readHorConst w hor = .ok grid)
    (hr : ∃ run, Swiss.forecastRun cal t = .ok run)
    (hp : ∀ v, ChosenVar vars v → ∃ count, VariablePublished w s vertUrl t n count v) :
    (∃ tr, Swiss.renderRun m w s cal dirs vars filter grid vertUrl t tr .done) ∧
    ∀ tr o, Swiss.renderRun m w s cal dirs vars filter grid vertUrl t tr o → o = .done := by
  obtain ⟨run, hr⟩ := hr
  have hz := forecastRun_model hr
  have hp' := placed hk hg
  have h31 : run.model.zoomRange.2 ≤ 31 := by rw [hz]; decide
  have hin : InRange m swissGrid.extent run.model.zoomRange := by rw [hz]; exact swiss_inRange hm
  suffices Effect.Sure (Swiss.renderRun m w s cal dirs vars filter grid vertUrl t) from this
  unfold Swiss.renderRun
  have single : ∀ {st : RunStep}, SingleFile w n st.url → ∀ f, ∃ G, Swiss.readGrid w grid f st = .ok G ∧ OnChart G :=
    fun h f => single_read hp' h f
  have cond : ∀ {v}, variableChosen vars v = true → ∃ count, VariablePublished w s vertUrl t n count v :=
    fun h => hp _ ((variableChosen_iff vars _).mp h)
  refine Effect.Sure.seq ?_
  simp only [List.forall_mem_cons, List.not_mem_nil, false_imp_iff, implies_true, and_true]
  refine ⟨.when fun hv => ?_, .when fun hv => ?_, .when fun hv => ?_, .when fun hv => ?_⟩
  · obtain ⟨count, hpub⟩ := cond hv
    have l1 := hpub .clct (by simp)
    have l2 := hpub .totPrec (by simp)
    have l3 := hpub .ceiling (by simp)
    obtain ⟨clct, e1, a1, -⟩ := listed_steps l1 true
    obtain ⟨totPrec, e2, -, -⟩ := listed_steps l2 false
    obtain ⟨ceiling, e3, -, -⟩ := listed_steps l3 false
    refine .need hr (.need e1 (.need e2 (.need e3 (.steps fun st hst => ?_))))
    obtain ⟨b1, b2, b3⟩ := a1 st hst
    have b2 := b2 rfl
    obtain ⟨p0, g0, f0⟩ := listed_get l2 e2 (k := st.nr - 1) (by omega) (by simp)
    obtain ⟨p1, g1, f1⟩ := listed_get l2 e2 (k := st.nr) b1 (by simp)
    obtain ⟨ce, g2, f2⟩ := listed_get l3 e3 (k := st.nr) b1 (by simp)
    have g3 := getStep_of_mem (steps_numbered e1) hst rfl
    obtain ⟨C, hC, oC⟩ := single b3 clctFraction
    obtain ⟨P0, hP0, oP0⟩ := single f0 id
    obtain ⟨P1, hP1, oP1⟩ := single f1 id
    obtain ⟨E, hE, oE⟩ := single f2 id
    have r1 : Swiss.readCloudPrecip w grid clct totPrec st = .ok ⟨C, P0, P1⟩ := by
      unfold Swiss.readCloudPrecip
      rw [cloudPrecipSteps_ok (by omega) g3 g0 g1, Res.bind_ok]
      show (Swiss.readGrid w grid clctFraction st >>= _) = _
      rw [hC, Res.bind_ok, hP0, Res.bind_ok, hP1, Res.bind_ok]
      exact (C43_cloud_precip _ _ _).1.mpr ⟨oC.fit oP0, oP0.fit oP1⟩
    have r2 : Swiss.readWeather w grid clct ceiling st = .ok ⟨C, E, none⟩ := by
      unfold Swiss.readWeather
      rw [g3, g2]
      show (Swiss.readGrid w grid clctFraction st >>= _) = _
      rw [hC, Res.bind_ok, hE, Res.bind_ok]
      exact (C43_weather_partial _ _ _).1.mpr (oC.fit oE)
    refine ⟨_, by rw [r1, Res.bind_ok, r2, Res.bind_ok], ?_⟩
    exact C86_cloud_precip m h31 oC.filled oP0.filled oP1.filled (by rw [oC.extent]; exact hin) oC.filled oE.filled
      (by simp) (by simp)
  · obtain ⟨count, hpub⟩ := cond hv
    have l1 := hpub .u10m (by simp)
    have l2 := hpub .v10m (by simp)
    have l3 := hpub .vmax10m (by simp)
    obtain ⟨us, e1, a1, -⟩ := listed_steps l1 false
    obtain ⟨vs, e2, -, -⟩ := listed_steps l2 false
    obtain ⟨gs, e3, -, -⟩ := listed_steps l3 false
    refine .need hr (.need e1 (.need e2 (.need e3 (.steps fun st hst => ?_))))
    obtain ⟨b1, b2, b3⟩ := a1 st hst
    obtain ⟨sv, g1, f1⟩ := listed_get l2 e2 (k := st.nr) b1 (by simp)
    obtain ⟨sg, g2, f2⟩ := listed_get l3 e3 (k := st.nr) b1 (by simp)
    have g3 := getStep_of_mem (steps_numbered e1) hst rfl
    obtain ⟨U, hU, oU⟩ := single b3 id
    obtain ⟨V, hV, oV⟩ := single f1 id
    obtain ⟨G, hG, oG⟩ := single f2 id
    have r1 : Swiss.readWind w grid us vs gs st = .ok ⟨U, V, some G⟩ := by
      unfold Swiss.readWind
      rw [g3, Res.bind_ok, g1, Res.bind_ok, g2, Res.bind_ok, hU, Res.bind_ok, hV, Res.bind_ok, hG, Res.bind_ok]
      exact (C43_wind _ _ _).1.mpr ⟨oU.fit oV, by rintro _ ⟨⟩; exact oG.fit oU⟩
    refine ⟨_, by rw [r1, Res.bind_ok], ?_⟩
    exact C86_wind m h31 oU.filled oV.filled (by rintro _ ⟨⟩; exact oG.filled) (by rw [oU.extent]; exact hin)
  · obtain ⟨count, hpub⟩ := cond hv
    obtain ⟨ts, e1, a1, -⟩ := listed_steps hpub false
    refine .need hr (.need e1 (.steps fun st hst => ?_))
    obtain ⟨b1, b2, b3⟩ := a1 st hst
    have g3 := getStep_of_mem (steps_numbered e1) hst rfl
    obtain ⟨T, hT, oT⟩ := single b3 id
    have r1 : Swiss.readTemp w grid ts st = .ok ⟨T⟩ := by
      unfold Swiss.readTemp
      rw [g3]
      show (Swiss.readGrid w grid id st >>= _) = _
      rw [hT, Res.bind_ok]
    refine ⟨_, by rw [r1, Res.bind_ok], ?_⟩
    exact C86_temp m h31 oT.filled (by show InRange m T.grid.extent _; rw [oT.extent]; exact hin)
  · have hlev : LevelFile w n vertUrl := by
      rcases (vertical_cond vars).mp hv with h | h
      · exact (hp _ h).choose_spec.1
      · exact (hp _ h).choose_spec.1
    obtain ⟨H, hH, lH, oH⟩ := levels_read hp' hlev 0 hhlByte
    refine .need hH (Effect.Sure.seq ?_)
    simp only [List.forall_mem_cons, List.not_mem_nil, false_imp_iff, implies_true, and_true]
    refine ⟨.when fun hv => ?_, .when fun hv => ?_⟩
    · obtain ⟨count, -, hpub⟩ := cond hv
      obtain ⟨cs, e1, a1, -⟩ := listed_steps hpub false
      refine .need hr (.need e1 (.steps fun st hst => ?_))
      obtain ⟨b1, b2, b3⟩ := a1 st hst
      have g3 := getStep_of_mem (steps_numbered e1) hst rfl
      obtain ⟨C, hC, lC, oC⟩ := levels_read hp' b3 0 clcByte
      have r1 : Swiss.readVerticalCloud w grid H cs st = .ok ⟨H, C⟩ := by
        unfold Swiss.readVerticalCloud
        rw [g3]
        show (w.readMultiUnstructured st.url 0 clcByte grid (some Swiss.levels) >>= _) = _
        rw [hC, Res.bind_ok]
        unfold VerticalCloudLayer.new
        simp [lH, lC]
      refine ⟨_, by rw [r1, Res.bind_ok], ?_⟩
      exact C86_vertical_clouds m _ (n := 49) (by norm_num) lH lC oH oC
    · obtain ⟨count, -, hpub⟩ := cond hv
      have l1 := hpub .u (by simp)
      have l2 := hpub .v (by simp)
      obtain ⟨us, e1, a1, -⟩ := listed_steps l1 false
      obtain ⟨vs, e2, -, -⟩ := listed_steps l2 false
      refine .need hr (.need e1 (.need e2 (.steps fun st hst => ?_)))
      obtain ⟨b1, b2, b3⟩ := a1 st hst
      obtain ⟨sv, g1, f1⟩ := listed_get l2 e2 (k := st.nr) b1 (by simp)
      have g3 := getStep_of_mem (steps_numbered e1) hst rfl
      obtain ⟨U, hU, lU, oU⟩ := levels_read hp' b3 255 uvByte
      obtain ⟨V, hV, lV, oV⟩ := levels_read hp' f1 255 uvByte
      have r1 : Swiss.readVerticalWind w grid H us vs st = .ok ⟨H, U, V⟩ := by
        unfold Swiss.readVerticalWind
        rw [g3, g1]
        show (w.readMultiUnstructured st.url 255 uvByte grid (some Swiss.levels) >>= _) = _
        rw [hU, Res.bind_ok, hV, Res.bind_ok]
        unfold VerticalWindLayer.new
        simp [lH, lU, lV]
      refine ⟨_, by rw [r1, Res.bind_ok], ?_⟩
      exact C86_vertical_wind m _ (n := 49) (by norm_num) lH lU lV oH oU oV

/-- C104: the program, called for this model, then succeeds, whatever is selected. -/
theorem C104_main (e : Environment) (hm : AccurateRow e.libm) (vars : List Text) (filter : List Nat)
    (assets : List Swiss.Asset) (ha : e.service.assets = .ok assets) (hor vert : Swiss.Asset)
    (hh : Swiss.findAsset assets "horizontal_constants_icon-ch1-eps.grib2".toList = some hor)
    (hv : Swiss.findAsset assets "vertical_constants_icon-ch1-eps.grib2".toList = some vert) (lat lon : Msg) (n : Nat)
    (hk : Constants e.world hor.href lat lon n) (fl : FullField lat n) (fn : FullField lon n)
    (refTimes : List Text) (hr : e.service.refTimes = .ok refTimes) (text : Text) (hl : refTimes.getLast? = some text)
    (time : OffsetTime) (ht : e.calendar.parse text = .ok time) (hvalid : time.loc.Valid) (ho : time.offset % 10800 = 0)
    (hsec : time.loc.sec % 10800 = 0)
    (hp : ∀ v, ChosenVar vars v → ∃ count, VariablePublished e.world e.service vert.href time.toUtc n count v) :
    (∃ tr, mainEffect e "icon-ch1".toList vars filter tr .done) ∧
    ∀ tr o, mainEffect e "icon-ch1".toList vars filter tr o → o = .done := by
  obtain ⟨grid, hg⟩ := hor_read hk fl fn
  have hlatest : SwissSearch.findLatest e.calendar.parse refTimes = .ok time.toUtc := by
    unfold SwissSearch.findLatest RefTime.fromParsed
    rw [hl]
    simp only [ht, Res.bind_ok]
    rw [if_neg]
    simp only [Instant.minute, Instant.second, Instant.hour]
    have := hvalid.1
    omega
  have hrun : ∃ run, Swiss.forecastRun e.calendar time.toUtc = .ok run := by
    have := (C80_run_name_partial time hvalid ho time.toUtc (by
      unfold SwissSearch.findLatest at hlatest
      rw [hl] at hlatest
      simp only [ht] at hlatest
      exact hlatest)).1
    unfold Swiss.forecastRun
    rw [this]
    exact ⟨_, rfl⟩
  suffices Effect.Sure (mainEffect e "icon-ch1".toList vars filter) from this
  unfold mainEffect
  rw [if_pos rfl]
  exact .need ha (.need (unwrap_ok.mpr hh) (.need hg (.need (unwrap_ok.mpr hv) (.need hr (.need hlatest
    (C104_run e.libm hm e.world e.service e.calendar e.dirs vars filter hor.href vert.href _ lat lon n hk grid hg hrun hp))))))

end Verif.Props
