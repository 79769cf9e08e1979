import Verif.Props.ProgramSwiss

/-!
# C129: only files of the selected variables and steps matter, MeteoSwiss
-/

namespace Verif.Props

open Verif MapTileRenderer

/-- The published quantities from whose files a chart variable is drawn. -/
def DrawnFrom : LayerType → Swiss.Variable → Prop
  | .cloudPrecip, x => x = .clct ∨ x = .totPrec ∨ x = .ceiling
  | .wind10m, x => x = .u10m ∨ x = .v10m ∨ x = .vmax10m
  | .temp2m, x => x = .t2m
  | .verticalCloud, x => x = .clc
  | .verticalWind, x => x = .u ∨ x = .v
  | .weather, _ => False

/-- The file number `k` of the quantity `x` is needed to draw step `n` of a chart variable: the file of the step itself,
and for precipitation also the one before it. -/
def FileNeeded (v : LayerType) (n : Nat) (x : Swiss.Variable) (k : Nat) : Prop :=
  DrawnFrom v x ∧ (k = n ∨ x = .totPrec ∧ k + 1 = n)

/-- The two worlds offer the same file number `k` of the quantity `x`. -/
def SameSwissFile (w w' : World) (s : Swiss.Service) (t : Instant) (x : Swiss.Variable) (k : Nat) : Prop :=
  ∀ files, Swiss.steps s t x false = .ok files → ∀ f ∈ files, f.nr = k → w.stream f.url = w'.stream f.url

theorem runSteps_subset {files : List SwissSearch.Step} {skip : Bool} {f : RunStep}
    (h : f ∈ SwissSearch.runSteps files skip) : f ∈ SwissSearch.runSteps files false := by
  unfold SwissSearch.runSteps at h ⊢
  simp only [List.mem_map, List.mem_filter] at h ⊢
  obtain ⟨p, ⟨hp, _⟩, rfl⟩ := h
  exact ⟨p, ⟨hp, by simp⟩, rfl⟩

theorem sameFile_of_step {w w' : World} {s : Swiss.Service} {t : Instant} {x : Swiss.Variable} {k : Nat} {skip : Bool}
    {files : List RunStep} (h : SameSwissFile w w' s t x k) (hf : Swiss.steps s t x skip = .ok files) {f : RunStep}
    (hg : getStepByNr files k = .ok f) : w.stream f.url = w'.stream f.url := by
  unfold Swiss.steps at hf
  obtain ⟨features, e1, hf⟩ := bind_ok' hf
  obtain ⟨l, e2, hf⟩ := bind_ok' hf
  cases hf
  unfold getStepByNr at hg
  cases hfind : (SwissSearch.runSteps l skip).find? fun s => s.nr == k with
  | none => rw [hfind] at hg; cases hg
  | some g =>
    rw [hfind] at hg
    cases hg
    refine h _ ?_ f (runSteps_subset (List.mem_of_find?_eq_some hfind)) (by simpa using List.find?_some hfind)
    unfold Swiss.steps
    rw [e1, Res.bind_ok, e2, Res.bind_ok]

theorem readUnstructured_congr {T : Type} {w w' : World} {url : Text} {missing : T} {f : Fl → T}
    {grid : UnstructuredGrid} (h : w.stream url = w'.stream url) :
    w.readUnstructured url missing f grid = w'.readUnstructured url missing f grid := by
  unfold World.readUnstructured World.readSingle
  rw [h]

theorem readMultiUnstructured_congr {T : Type} {w w' : World} {url : Text} {missing : T} {f : Fl → T}
    {grid : UnstructuredGrid} {range : Option (Nat × Nat)} (h : w.stream url = w'.stream url) :
    w.readMultiUnstructured url missing f grid range = w'.readMultiUnstructured url missing f grid range := by
  unfold World.readMultiUnstructured World.readMulti
  rw [h]

theorem unwrapResult_ok {α : Type} {r : Res α} {a : α} (h : Res.unwrapResult r = .ok a) : r = .ok a := by
  cases r <;> simp_all [Res.unwrapResult]

theorem cloudPrecip_congr {w w' : World} {s : Swiss.Service} {t : Instant} {grid : UnstructuredGrid} {st : RunStep}
    {clct totPrec : List RunStep} (h : ∀ x k, FileNeeded .cloudPrecip st.nr x k → SameSwissFile w w' s t x k)
    (e1 : Swiss.steps s t .clct true = .ok clct) (e2 : Swiss.steps s t .totPrec false = .ok totPrec) :
    Swiss.readCloudPrecip w grid clct totPrec st = Swiss.readCloudPrecip w' grid clct totPrec st := by
  unfold Swiss.readCloudPrecip
  refine bind_congr' fun p hp => ?_
  obtain ⟨c, p0, p1⟩ := p
  unfold cloudPrecipSteps at hp
  obtain ⟨_, a1, hp⟩ := bind_ok' hp
  split at hp
  · cases hp
  rename_i hn
  obtain ⟨_, a2, hp⟩ := bind_ok' hp
  obtain ⟨_, a3, hp⟩ := bind_ok' hp
  cases hp
  have k1 := sameFile_of_step (h .clct st.nr ⟨.inl rfl, .inl rfl⟩) e1 (unwrapResult_ok a1)
  have k2 := sameFile_of_step (h .totPrec (st.nr - 1) ⟨.inr (.inl rfl), .inr ⟨rfl, by omega⟩⟩) e2 (unwrapResult_ok a2)
  have k3 := sameFile_of_step (h .totPrec st.nr ⟨.inr (.inl rfl), .inl rfl⟩) e2 (unwrapResult_ok a3)
  show ((Swiss.readGrid w grid clctFraction c).bind fun a => (Swiss.readGrid w grid id p0).bind fun b =>
    (Swiss.readGrid w grid id p1).bind fun d => CloudPrecipLayer.new a b d) =
    ((Swiss.readGrid w' grid clctFraction c).bind fun a => (Swiss.readGrid w' grid id p0).bind fun b =>
    (Swiss.readGrid w' grid id p1).bind fun d => CloudPrecipLayer.new a b d)
  unfold Swiss.readGrid
  rw [readUnstructured_congr k1, readUnstructured_congr k2, readUnstructured_congr k3]

theorem weather_congr {w w' : World} {s : Swiss.Service} {t : Instant} {grid : UnstructuredGrid} {st : RunStep}
    {clct ceiling : List RunStep} (h : ∀ x k, FileNeeded .cloudPrecip st.nr x k → SameSwissFile w w' s t x k)
    (e1 : Swiss.steps s t .clct true = .ok clct) (e2 : Swiss.steps s t .ceiling false = .ok ceiling) :
    Swiss.readWeather w grid clct ceiling st = Swiss.readWeather w' grid clct ceiling st := by
  unfold Swiss.readWeather
  refine bind_congr' fun c a1 => bind_congr' fun e a2 => ?_
  have k1 := sameFile_of_step (h .clct st.nr ⟨.inl rfl, .inl rfl⟩) e1 (unwrapResult_ok a1)
  have k2 := sameFile_of_step (h .ceiling st.nr ⟨.inr (.inr rfl), .inl rfl⟩) e2 (unwrapResult_ok a2)
  unfold Swiss.readGrid
  rw [readUnstructured_congr k1, readUnstructured_congr k2]

theorem wind_congr {w w' : World} {s : Swiss.Service} {t : Instant} {grid : UnstructuredGrid} {st : RunStep}
    {u v g : List RunStep} (h : ∀ x k, FileNeeded .wind10m st.nr x k → SameSwissFile w w' s t x k)
    (e1 : Swiss.steps s t .u10m false = .ok u) (e2 : Swiss.steps s t .v10m false = .ok v)
    (e3 : Swiss.steps s t .vmax10m false = .ok g) :
    Swiss.readWind w grid u v g st = Swiss.readWind w' grid u v g st := by
  unfold Swiss.readWind
  refine bind_congr' fun _ a1 => bind_congr' fun _ a2 => bind_congr' fun _ a3 => ?_
  have k1 := sameFile_of_step (h .u10m st.nr ⟨.inl rfl, .inl rfl⟩) e1 a1
  have k2 := sameFile_of_step (h .v10m st.nr ⟨.inr (.inl rfl), .inl rfl⟩) e2 a2
  have k3 := sameFile_of_step (h .vmax10m st.nr ⟨.inr (.inr rfl), .inl rfl⟩) e3 a3
  unfold Swiss.readGrid
  rw [readUnstructured_congr k1, readUnstructured_congr k2, readUnstructured_congr k3]

theorem temp_congr {w w' : World} {s : Swiss.Service} {t : Instant} {grid : UnstructuredGrid} {st : RunStep}
    {t2m : List RunStep} (h : ∀ x k, FileNeeded .temp2m st.nr x k → SameSwissFile w w' s t x k)
    (e1 : Swiss.steps s t .t2m false = .ok t2m) : Swiss.readTemp w grid t2m st = Swiss.readTemp w' grid t2m st := by
  unfold Swiss.readTemp
  refine bind_congr' fun _ a1 => ?_
  have k1 := sameFile_of_step (h .t2m st.nr ⟨rfl, .inl rfl⟩) e1 (unwrapResult_ok a1)
  unfold Swiss.readGrid
  rw [readUnstructured_congr k1]

theorem verticalCloud_congr {w w' : World} {s : Swiss.Service} {t : Instant} {grid : UnstructuredGrid} {st : RunStep}
    {hhl : List (LatLonValueGrid UInt8)} {clc : List RunStep}
    (h : ∀ x k, FileNeeded .verticalCloud st.nr x k → SameSwissFile w w' s t x k)
    (e1 : Swiss.steps s t .clc false = .ok clc) :
    Swiss.readVerticalCloud w grid hhl clc st = Swiss.readVerticalCloud w' grid hhl clc st := by
  unfold Swiss.readVerticalCloud
  refine bind_congr' fun _ a1 => ?_
  have k1 := sameFile_of_step (h .clc st.nr ⟨rfl, .inl rfl⟩) e1 (unwrapResult_ok a1)
  rw [readMultiUnstructured_congr k1]

theorem verticalWind_congr {w w' : World} {s : Swiss.Service} {t : Instant} {grid : UnstructuredGrid} {st : RunStep}
    {hhl : List (LatLonValueGrid UInt8)} {u v : List RunStep}
    (h : ∀ x k, FileNeeded .verticalWind st.nr x k → SameSwissFile w w' s t x k)
    (e1 : Swiss.steps s t .u false = .ok u) (e2 : Swiss.steps s t .v false = .ok v) :
    Swiss.readVerticalWind w grid hhl u v st = Swiss.readVerticalWind w' grid hhl u v st := by
  unfold Swiss.readVerticalWind
  refine bind_congr' fun _ a1 => bind_congr' fun _ a2 => ?_
  have k1 := sameFile_of_step (h .u st.nr ⟨.inl rfl, .inl rfl⟩) e1 (unwrapResult_ok a1)
  have k2 := sameFile_of_step (h .v st.nr ⟨.inr rfl, .inl rfl⟩) e2 (unwrapResult_ok a2)
  rw [readMultiUnstructured_congr k1, readMultiUnstructured_congr k2]

theorem steps_congr {s s' : Swiss.Service} {t : Instant} {x : Swiss.Variable} (h : s.search x t = s'.search x t) (skip : Bool) :
    Swiss.steps s t x skip = Swiss.steps s' t x skip := by
  unfold Swiss.steps
  rw [h]

/-- C129 for a run: what rendering does is determined by the lists of files of the quantities from which the selected
variables are drawn, by those files that belong to selected steps (and the previous step for precipitation), and by
the level heights if a vertical variable is selected. -/
theorem C129_run (m : Libm) (w w' : World) (s s' : Swiss.Service) (cal : Swiss.Calendar) (dirs : Text → Bool) (vars : List Text)
    (filter : List Nat) (grid : UnstructuredGrid) (vertUrl : Text) (t : Instant)
    (hl : ∀ v, ChosenVar vars v → ∀ x, DrawnFrom v x → s.search x t = s'.search x t)
    (hf : ∀ v, ChosenVar vars v → ∀ steps, swissSteps s t v = .ok steps → ∀ st ∈ steps, Chosen filter st →
      ∀ x k, FileNeeded v st.nr x k → SameSwissFile w w' s t x k)
    (hh : ChosenVar vars .verticalCloud ∨ ChosenVar vars .verticalWind → w.stream vertUrl = w'.stream vertUrl) :
    Swiss.renderRun m w s cal dirs vars filter grid vertUrl t =
      Swiss.renderRun m w' s' cal dirs vars filter grid vertUrl t := by
  have e1 : Effect.when (variableChosen vars .cloudPrecip) (Swiss.renderCloudPrecip m w s cal dirs filter grid t) =
      Effect.when (variableChosen vars .cloudPrecip) (Swiss.renderCloudPrecip m w' s' cal dirs filter grid t) := by
    refine Effect.when_congr fun hv => ?_
    have hv := (variableChosen_iff _ _).mp hv
    have hl := hl _ hv
    refine Effect.need_congr rfl fun run _ => Effect.need_congr (steps_congr (hl _ (.inl rfl)) _) fun clct a1 =>
      Effect.need_congr (steps_congr (hl _ (.inr (.inl rfl))) _) fun totPrec a2 =>
      Effect.need_congr (steps_congr (hl _ (.inr (.inr rfl))) _) fun ceiling a3 =>
      renderSteps_congr fun st hs hc => ?_
    have := hf _ hv _ a1 st hs hc
    show (Swiss.readCloudPrecip w grid clct totPrec st >>= fun _ => _) = (Swiss.readCloudPrecip w' grid clct totPrec st >>= fun _ => _)
    rw [cloudPrecip_congr this a1 a2, weather_congr this a1 a3]
  have e2 : Effect.when (variableChosen vars .wind10m) (Swiss.renderWind m w s cal dirs filter grid t) =
      Effect.when (variableChosen vars .wind10m) (Swiss.renderWind m w' s' cal dirs filter grid t) := by
    refine Effect.when_congr fun hv => ?_
    have hv := (variableChosen_iff _ _).mp hv
    have hl := hl _ hv
    refine Effect.need_congr rfl fun run _ => Effect.need_congr (steps_congr (hl _ (.inl rfl)) _) fun u a1 =>
      Effect.need_congr (steps_congr (hl _ (.inr (.inl rfl))) _) fun v a2 =>
      Effect.need_congr (steps_congr (hl _ (.inr (.inr rfl))) _) fun g a3 =>
      renderSteps_congr fun st hs hc => ?_
    have := hf _ hv _ a1 st hs hc
    show (Swiss.readWind w grid u v g st >>= fun _ => _) = (Swiss.readWind w' grid u v g st >>= fun _ => _)
    rw [wind_congr this a1 a2 a3]
  have e3 : Effect.when (variableChosen vars .temp2m) (Swiss.renderTemp m w s cal dirs filter grid t) =
      Effect.when (variableChosen vars .temp2m) (Swiss.renderTemp m w' s' cal dirs filter grid t) := by
    refine Effect.when_congr fun hv => ?_
    have hv := (variableChosen_iff _ _).mp hv
    have hl := hl _ hv
    refine Effect.need_congr rfl fun run _ => Effect.need_congr (steps_congr (hl _ rfl) _) fun t2m a1 =>
      renderSteps_congr fun st hs hc => ?_
    have := hf _ hv _ a1 st hs hc
    show (Swiss.readTemp w grid t2m st >>= fun _ => _) = (Swiss.readTemp w' grid t2m st >>= fun _ => _)
    rw [temp_congr this a1]
  have e4 : ∀ hhl, Effect.when (variableChosen vars .verticalCloud)
        (Swiss.renderVerticalCloud m w s cal dirs filter grid t hhl) =
      Effect.when (variableChosen vars .verticalCloud)
        (Swiss.renderVerticalCloud m w' s' cal dirs filter grid t hhl) := by
    refine fun hhl => Effect.when_congr fun hv => ?_
    have hv := (variableChosen_iff _ _).mp hv
    have hl := hl _ hv
    refine Effect.need_congr rfl fun run _ => Effect.need_congr (steps_congr (hl _ rfl) _) fun clc a1 =>
      renderSteps_congr fun st hs hc => ?_
    have := hf _ hv _ a1 st hs hc
    show (Swiss.readVerticalCloud w grid hhl clc st >>= fun _ => _) =
      (Swiss.readVerticalCloud w' grid hhl clc st >>= fun _ => _)
    rw [verticalCloud_congr this a1]
  have e5 : ∀ hhl, Effect.when (variableChosen vars .verticalWind)
        (Swiss.renderVerticalWind m w s cal dirs filter grid t hhl) =
      Effect.when (variableChosen vars .verticalWind)
        (Swiss.renderVerticalWind m w' s' cal dirs filter grid t hhl) := by
    refine fun hhl => Effect.when_congr fun hv => ?_
    have hv := (variableChosen_iff _ _).mp hv
    have hl := hl _ hv
    refine Effect.need_congr rfl fun run _ => Effect.need_congr (steps_congr (hl _ (.inl rfl)) _) fun u a1 =>
      Effect.need_congr (steps_congr (hl _ (.inr rfl)) _) fun v a2 =>
      renderSteps_congr fun st hs hc => ?_
    have := hf _ hv _ a1 st hs hc
    show (Swiss.readVerticalWind w grid hhl u v st >>= fun _ => _) =
      (Swiss.readVerticalWind w' grid hhl u v st >>= fun _ => _)
    rw [verticalWind_congr this a1 a2]
  have e6 : Effect.when (vars.isEmpty || vars.contains LayerType.verticalCloud.name ||
        vars.contains LayerType.verticalWind.name)
      (Effect.need (Swiss.readHhl w grid vertUrl) fun hhl =>
        Seq [Effect.when (variableChosen vars .verticalCloud)
            (Swiss.renderVerticalCloud m w s cal dirs filter grid t hhl),
          Effect.when (variableChosen vars .verticalWind)
            (Swiss.renderVerticalWind m w s cal dirs filter grid t hhl)]) =
      Effect.when (vars.isEmpty || vars.contains LayerType.verticalCloud.name ||
        vars.contains LayerType.verticalWind.name)
      (Effect.need (Swiss.readHhl w' grid vertUrl) fun hhl =>
        Seq [Effect.when (variableChosen vars .verticalCloud)
            (Swiss.renderVerticalCloud m w' s' cal dirs filter grid t hhl),
          Effect.when (variableChosen vars .verticalWind)
            (Swiss.renderVerticalWind m w' s' cal dirs filter grid t hhl)]) := by
    refine Effect.when_congr fun hc => Effect.need_congr ?_ fun hhl _ => ?_
    · exact readMultiUnstructured_congr (hh ((vertical_cond vars).mp hc))
    · rw [e4, e5]
  unfold Swiss.renderRun
  rw [e1, e2, e3, e6]

/-- **C129.** Two servers offer the same positions, the same newest reference time, the same lists of files of the
quantities from which the selected variables are drawn, the same files of selected steps (and the previous step for
precipitation) and, if a vertical variable is selected, the same level heights.  Then the program does the same with
both, whatever else they offer: other constants, older runs, files of other quantities, files of other steps. -/
theorem C129_only_needed (m : Libm) (w w' : World) (s s' : Swiss.Service) (cal : Swiss.Calendar) (dirs : Text → Bool)
    (vars : List Text) (filter : List Nat) (assets assets' : List Swiss.Asset) (times times' : List Text)
    (ha : s.assets = .ok assets) (ha' : s'.assets = .ok assets')
    (hhor : Swiss.findAsset assets "horizontal_constants_icon-ch1-eps.grib2".toList =
      Swiss.findAsset assets' "horizontal_constants_icon-ch1-eps.grib2".toList)
    (hvert : Swiss.findAsset assets "vertical_constants_icon-ch1-eps.grib2".toList =
      Swiss.findAsset assets' "vertical_constants_icon-ch1-eps.grib2".toList)
    (ht : s.refTimes = .ok times) (ht' : s'.refTimes = .ok times') (hlast : times.getLast? = times'.getLast?)
    (hpos : ∀ a, Swiss.findAsset assets "horizontal_constants_icon-ch1-eps.grib2".toList = some a →
      w.stream a.href = w'.stream a.href)
    (hhhl : ChosenVar vars .verticalCloud ∨ ChosenVar vars .verticalWind →
      ∀ a, Swiss.findAsset assets "vertical_constants_icon-ch1-eps.grib2".toList = some a →
        w.stream a.href = w'.stream a.href)
    (hl : ∀ t, SwissSearch.findLatest cal.parse times = .ok t → ∀ v, ChosenVar vars v → ∀ x, DrawnFrom v x →
      s.search x t = s'.search x t)
    (hf : ∀ t, SwissSearch.findLatest cal.parse times = .ok t → ∀ v, ChosenVar vars v → ∀ steps,
      swissSteps s t v = .ok steps → ∀ st ∈ steps, Chosen filter st → ∀ x k, FileNeeded v st.nr x k →
      SameSwissFile w w' s t x k) (tr : List Write) (o : Outcome) :
    Swiss.renderLatest m w s cal dirs vars filter tr o ↔ Swiss.renderLatest m w' s' cal dirs vars filter tr o := by
  have e : Swiss.renderLatest m w s cal dirs vars filter = Swiss.renderLatest m w' s' cal dirs vars filter := by
    unfold Swiss.renderLatest
    rw [ha, ha', ht, ht']
    show Effect.need (Res.unwrap (Swiss.findAsset assets Swiss.horConstId)) _ =
      Effect.need (Res.unwrap (Swiss.findAsset assets' Swiss.horConstId)) _
    refine Effect.need_congr (congrArg Res.unwrap hhor) fun hor e1 => Effect.need_congr ?_ fun grid _ =>
      Effect.need_congr (congrArg Res.unwrap hvert) fun vert e2 => ?_
    · have : Swiss.findAsset assets "horizontal_constants_icon-ch1-eps.grib2".toList = some hor := by
        unfold Swiss.horConstId at e1
        revert e1
        cases Swiss.findAsset assets "horizontal_constants_icon-ch1-eps.grib2".toList <;> simp [Res.unwrap]
      unfold Swiss.readHorConst World.readMulti
      rw [hpos hor this]
    · have : Swiss.findAsset assets "vertical_constants_icon-ch1-eps.grib2".toList = some vert := by
        unfold Swiss.vertConstId at e2
        revert e2
        cases Swiss.findAsset assets "vertical_constants_icon-ch1-eps.grib2".toList <;> simp [Res.unwrap]
      show Effect.need (SwissSearch.findLatest cal.parse times) _ = Effect.need (SwissSearch.findLatest cal.parse times') _
      refine Effect.need_congr ?_ fun t e3 => C129_run m w w' s s' cal dirs vars filter grid vert.href t
        (hl t e3) (hf t e3) fun hc => hhhl hc vert this
      unfold SwissSearch.findLatest
      rw [hlast]
  rw [e]

end Verif.Props
