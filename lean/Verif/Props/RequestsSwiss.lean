import Verif.Props.Requests

/-!
# Property C179: the requests of a call for the model of MeteoSwiss
-/

namespace Verif.Props

open Verif MapTileRenderer

/-! ## Specification -/

/-- The URLs of the files of a variable as the web service lists them: the file of hour `n` has index `n`. -/
def filesListed (s : Swiss.Service) (t : Instant) (x : Swiss.Variable) : List Text :=
  match s.search x t with
  | .ok features =>
    match SwissSearch.findFiles features with
    | .ok files => files.map (·.href)
    | _ => []
  | _ => []

/-- The request for a file: none if the service names a file that is not on the web. -/
def fetchOf (url : Text) : List Event := if Dwd.isUrl url then [.get url] else []

/-- The request for the file of a variable at an hour. -/
def fetchAt (s : Swiss.Service) (t : Instant) (x : Swiss.Variable) (n : Nat) : List Event :=
  match (filesListed s t x)[n]? with
  | some url => fetchOf url
  | none => []

/-- The lists that the program asks for: the hours are those of the first. -/
def swissLists : LayerType → List Swiss.Variable
  | .cloudPrecip => [.clct, .totPrec, .ceiling]
  | .wind10m => [.u10m, .v10m, .vmax10m]
  | .temp2m => [.t2m]
  | .verticalCloud => [.clc]
  | .verticalWind => [.u, .v]
  | .weather => []

/-- The files that are read for an hour. -/
def swissFetches : LayerType → Nat → List (Swiss.Variable × Nat)
  | .cloudPrecip, n => [(.clct, n), (.totPrec, n - 1), (.totPrec, n), (.clct, n), (.ceiling, n)]
  | .wind10m, n => [(.u10m, n), (.v10m, n), (.vmax10m, n)]
  | .temp2m, n => [(.t2m, n)]
  | .verticalCloud, n => [(.clc, n)]
  | .verticalWind, n => [(.u, n), (.v, n)]
  | .weather, _ => []

/-- The number of hours of a variable. -/
def hoursListed (s : Swiss.Service) (t : Instant) (v : LayerType) : Nat :=
  match (swissLists v).head? with
  | some x => (filesListed s t x).length
  | none => 0

/-- The hours that are rendered: there is no precipitation at hour 0. -/
def swissHours (s : Swiss.Service) (t : Instant) (filter : List Nat) (v : LayerType) : List Nat :=
  (List.range (hoursListed s t v)).filter fun n => (v = .cloudPrecip → 1 ≤ n) ∧ (filter = [] ∨ n ∈ filter)

/-- The requests for a variable. -/
def swissVar (s : Swiss.Service) (t : Instant) (vars : List Text) (filter : List Nat) (v : LayerType) : List Event :=
  if ChosenVar vars v then
    (swissLists v).map (fun x => .query (.files x)) ++
      (swissHours s t filter v).flatMap fun n => (swissFetches v n).flatMap fun p => fetchAt s t p.1 p.2
  else []

/-- All requests for a run. -/
def swissRequests (s : Swiss.Service) (t : Instant) (vars : List Text) (filter : List Nat) (vertUrl : Text) : List Event :=
  swissVar s t vars filter .cloudPrecip ++ swissVar s t vars filter .wind10m ++ swissVar s t vars filter .temp2m ++
    (if ChosenVar vars .verticalCloud ∨ ChosenVar vars .verticalWind then fetchOf vertUrl else []) ++
    swissVar s t vars filter .verticalCloud ++ swissVar s t vars filter .verticalWind

/-! ## Lists of steps -/

theorem steps_listed {s : Swiss.Service} {t : Instant} {x : Swiss.Variable} {skip : Bool} {l : List RunStep}
    (h : Swiss.steps s t x skip = .ok l) :
    l = (((filesListed s t x).zipIdx).filter fun p => !skip || decide (1 ≤ p.2)).map fun p => ⟨p.2, p.1⟩ := by
  unfold Swiss.steps at h
  rw [Res.bind_eq_ok] at h
  obtain ⟨features, h1, h⟩ := h
  rw [Res.bind_eq_ok] at h
  obtain ⟨files, h2, h⟩ := h
  cases h
  unfold filesListed SwissSearch.runSteps
  rw [h1]
  simp only
  rw [h2]
  simp only
  rw [List.zipIdx_map, List.filter_map, List.map_map]
  rfl

theorem find_listed {s : Swiss.Service} {t : Instant} {x : Swiss.Variable} {skip : Bool} {l : List RunStep} {n : Nat} {st : RunStep}
    (h : Swiss.steps s t x skip = .ok l) (hf : l.find? (fun s => s.nr == n) = some st) :
    fetchAt s t x n = fetchOf st.url := by
  have hn : st.nr = n := by simpa using List.find?_some hf
  have hm := List.mem_of_find?_eq_some hf
  rw [steps_listed h] at hm
  obtain ⟨⟨url, i⟩, hi, rfl⟩ := List.mem_map.mp hm
  have hi := List.mem_zipIdx_iff_getElem?.mp (List.mem_filter.mp hi).1
  simp only at hn hi
  subst hn
  unfold fetchAt
  rw [hi]

theorem unwrap_found {l : List RunStep} {n : Nat} {st : RunStep} (h : Res.unwrapResult (getStepByNr l n) = .ok st) :
    l.find? (fun s => s.nr == n) = some st := by
  unfold getStepByNr at h
  cases hf : l.find? (fun s => s.nr == n) with
  | none => rw [hf] at h; cases h
  | some y => rw [hf] at h; cases h; rfl

theorem step_found {l : List RunStep} {n : Nat} {st : RunStep} (h : getStepByNr l n = .ok st) :
    l.find? (fun s => s.nr == n) = some st := by
  unfold getStepByNr at h
  cases hf : l.find? (fun s => s.nr == n) with
  | none => rw [hf] at h; cases h
  | some y => rw [hf] at h; cases h; rfl

/-! ## Reading -/

section

variable {net : Net} {w : World} {grid : UnstructuredGrid}

theorem counted_streamOf {name : Text} : Counted (Asking.stream net w name) (fetchOf name) := by
  unfold Asking.stream fetchOf
  split
  · exact ((Counted.request net name).bind fun _ _ => Counted.pure _).cast rfl
  · exact Counted.of _

theorem counted_readUnstructured {T : Type} {name : Text} {missing : T} {transform : Fl → T} :
    Counted (Asking.readUnstructured net w name missing transform grid) (fetchOf name) :=
  (((counted_streamOf.bind fun _ _ => ((Counted.lift _).bind fun _ _ => Counted.pure _).cast rfl).cast (List.append_nil _)).bind
    fun _ _ => Counted.lift _).cast (List.append_nil _)

theorem counted_readMulti {name : Text} : Counted (Asking.readMulti net w name) (fetchOf name) :=
  (counted_streamOf.bind fun _ _ => Counted.lift _).cast (List.append_nil _)

theorem counted_readMultiUnstructured {T : Type} {name : Text} {missing : T} {transform : Fl → T} {range : Option (Nat × Nat)} :
    Counted (Asking.readMultiUnstructured net w name missing transform grid range) (fetchOf name) :=
  (counted_readMulti.bind fun _ _ => Counted.lift _).cast (List.append_nil _)

theorem counted_swissGrid {transform : Fl → Fl} {st : RunStep} : Counted (Asking.swissGrid net w grid transform st) (fetchOf st.url) :=
  counted_readUnstructured

theorem counted_horConst {url : Text} : Counted (Asking.swissHorConst net w url) (fetchOf url) :=
  (counted_readMulti.bind fun _ _ => ((Counted.lift _).bind fun _ _ => (Counted.lift _).bind fun _ _ => (Counted.lift _).bind
    fun _ _ => (Counted.lift _).bind fun _ _ => (Counted.lift _).bind fun _ _ => Counted.lift _).cast rfl).cast (List.append_nil _)

variable {s : Swiss.Service} {t : Instant}

/-- What an hour of a variable takes. -/
abbrev hourFetches (s : Swiss.Service) (t : Instant) (v : LayerType) (n : Nat) : List Event :=
  (swissFetches v n).flatMap fun p => fetchAt s t p.1 p.2

theorem counted_swissTemp {t2m : List RunStep} (h : Swiss.steps s t .t2m false = .ok t2m) (st : RunStep) :
    Counted (Asking.swissTemp net w grid t2m st) (hourFetches s t .temp2m st.nr) := by
  refine ((Counted.lift _).bind fun a ⟨_, _, e⟩ => ?_).cast (List.nil_append _)
  refine (counted_swissGrid.bind fun _ _ => Counted.pure _).cast ?_
  simp [hourFetches, swissFetches, find_listed h (unwrap_found e.symm)]

theorem counted_swissWind {u v g : List RunStep} (hu : Swiss.steps s t .u10m false = .ok u) (hv : Swiss.steps s t .v10m false = .ok v)
    (hg : Swiss.steps s t .vmax10m false = .ok g) (st : RunStep) :
    Counted (Asking.swissWind net w grid u v g st) (hourFetches s t .wind10m st.nr) := by
  refine ((Counted.lift _).bind fun a ⟨_, _, e1⟩ => ((Counted.lift _).bind fun b ⟨_, _, e2⟩ => ((Counted.lift _).bind
    fun c ⟨_, _, e3⟩ => ?_).cast (List.nil_append _)).cast (List.nil_append _)).cast (List.nil_append _)
  refine (counted_swissGrid.bind fun _ _ => counted_swissGrid.bind fun _ _ => counted_swissGrid.bind fun _ _ =>
    (Counted.lift _).bind fun _ _ => Counted.pure _).cast ?_
  simp [hourFetches, swissFetches, find_listed hu (step_found e1.symm), find_listed hv (step_found e2.symm),
    find_listed hg (step_found e3.symm)]

theorem counted_swissCloudPrecip {clct totPrec ceiling : List RunStep} (hc : Swiss.steps s t .clct true = .ok clct)
    (hp : Swiss.steps s t .totPrec false = .ok totPrec) (he : Swiss.steps s t .ceiling false = .ok ceiling) (st : RunStep) :
    Counted (Asking.swissCloudPrecip net w grid clct totPrec ceiling st) (hourFetches s t .cloudPrecip st.nr) := by
  refine ((Counted.lift _).bind fun a ⟨_, _, e⟩ => ?_).cast (List.nil_append _)
  obtain ⟨c, p0, p1⟩ := a
  have e : cloudPrecipSteps st clct totPrec = .ok (c, p0, p1) := e.symm
  unfold cloudPrecipSteps at e
  rw [Res.bind_eq_ok] at e
  obtain ⟨c', h1, e⟩ := e
  split at e
  · cases e
  rw [Res.bind_eq_ok] at e
  obtain ⟨p, h2, e⟩ := e
  rw [Res.bind_eq_ok] at e
  obtain ⟨p', h3, e⟩ := e
  cases e
  have f1 := find_listed hc (unwrap_found h1)
  have f2 := find_listed hp (unwrap_found h2)
  have f3 := find_listed hp (unwrap_found h3)
  refine Counted.cast (l := fetchOf c.url ++ (fetchOf p0.url ++ (fetchOf p1.url ++ ([] ++ (fetchAt s t .clct st.nr ++
      fetchAt s t .ceiling st.nr))))) ?_ (by simp [hourFetches, swissFetches, f1, f2, f3])
  exact
    (counted_swissGrid (transform := clctFraction) (st := c)).bind fun cloud _ =>
    (counted_swissGrid (transform := id) (st := p0)).bind fun prec0 _ =>
    (counted_swissGrid (transform := id) (st := p1)).bind fun prec1 _ =>
    (Counted.lift (CloudPrecipLayer.new cloud prec0 prec1)).bind fun l _ =>
    ((Counted.lift (Res.unwrapResult (getStepByNr clct st.nr))).bind fun cs ⟨_, _, e1⟩ =>
      ((Counted.lift (Res.unwrapResult (getStepByNr ceiling st.nr))).bind fun es ⟨_, _, e2⟩ =>
        ((counted_swissGrid (transform := clctFraction) (st := cs)).bind fun cloud _ =>
          (counted_swissGrid (transform := id) (st := es)).bind fun ceil _ =>
          (Counted.lift (WeatherLayer.new cloud ceil none)).bind fun ww _ => Counted.pure (Layers.cloudPrecip l ww)).cast (by
            rw [find_listed hc (unwrap_found e1.symm), find_listed he (unwrap_found e2.symm)]
            simp)).cast (List.nil_append _)).cast (List.nil_append _)

theorem counted_swissVerticalCloud {hhl : List (LatLonValueGrid UInt8)} {clc : List RunStep}
    (h : Swiss.steps s t .clc false = .ok clc) (st : RunStep) :
    Counted (Asking.swissVerticalCloud net w grid hhl clc st) (hourFetches s t .verticalCloud st.nr) := by
  refine ((Counted.lift _).bind fun a ⟨_, _, e⟩ => ?_).cast (List.nil_append _)
  refine (counted_readMultiUnstructured.bind fun _ _ => (Counted.lift _).bind fun _ _ => Counted.pure _).cast ?_
  simp [hourFetches, swissFetches, find_listed h (unwrap_found e.symm)]

theorem counted_swissVerticalWind {hhl : List (LatLonValueGrid UInt8)} {u v : List RunStep}
    (hu : Swiss.steps s t .u false = .ok u) (hv : Swiss.steps s t .v false = .ok v) (st : RunStep) :
    Counted (Asking.swissVerticalWind net w grid hhl u v st) (hourFetches s t .verticalWind st.nr) := by
  refine ((Counted.lift _).bind fun a ⟨_, _, e1⟩ => ((Counted.lift _).bind fun b ⟨_, _, e2⟩ => ?_).cast
    (List.nil_append _)).cast (List.nil_append _)
  refine (counted_readMultiUnstructured.bind fun _ _ => counted_readMultiUnstructured.bind fun _ _ => (Counted.lift _).bind
    fun _ _ => Counted.pure _).cast ?_
  simp [hourFetches, swissFetches, find_listed hu (unwrap_found e1.symm), find_listed hv (unwrap_found e2.symm)]

/-! ## A run -/

theorem hours_listed {v : LayerType} {x : Swiss.Variable} {skip : Bool} {first : List RunStep} {filter : List Nat}
    (hx : (swissLists v).head? = some x) (hskip : skip = true ↔ v = .cloudPrecip) (h : Swiss.steps s t x skip = .ok first)
    (L : Nat → List Event) :
    (first.flatMap fun st => if selected filter st then L st.nr else []) = (swissHours s t filter v).flatMap L := by
  unfold swissHours hoursListed
  rw [hx, steps_listed h]
  simp only
  generalize filesListed s t x = l
  have key : ∀ (l : List Text) (k : Nat), ((((l.zipIdx k).filter fun p => !skip || decide (1 ≤ p.2)).map fun p =>
      (⟨p.2, p.1⟩ : RunStep)).flatMap fun st => if selected filter st then L st.nr else []) =
      ((List.range' k l.length).filter fun n => (v = .cloudPrecip → 1 ≤ n) ∧ (filter = [] ∨ n ∈ filter)).flatMap L := by
    intro l
    induction l with
    | nil => intro k; rfl
    | cons a l ih =>
      intro k
      rw [List.zipIdx_cons, List.length_cons, List.range'_succ, List.filter_cons, List.filter_cons]
      have h1 : (!skip || decide (1 ≤ k)) = true ↔ (v = .cloudPrecip → 1 ≤ k) := by
        rw [Bool.or_eq_true, decide_eq_true_iff, Bool.not_eq_true', ← Bool.not_eq_true, hskip]
        tauto
      by_cases hk : v = .cloudPrecip → 1 ≤ k
      · rw [if_pos (h1.mpr hk), List.map_cons, List.flatMap_cons, ih]
        have h2 : selected filter ⟨k, a⟩ = true ↔ filter = [] ∨ k ∈ filter := selected_iff ..
        by_cases hs : filter = [] ∨ k ∈ filter
        · rw [if_pos (h2.mpr hs), if_pos (by simp only [decide_eq_true_iff]; exact ⟨hk, hs⟩), List.flatMap_cons]
        · rw [if_neg fun h => hs (h2.mp h), if_neg (by simp only [decide_eq_true_iff]; exact fun h => hs h.2),
            List.nil_append]
      · rw [if_neg fun h => hk (h1.mp h), if_neg (by simp only [decide_eq_true_iff]; exact fun h => hk h.1), ih]
  rw [List.range_eq_range']
  exact key l 0

theorem counted_swissSteps (x : Swiss.Variable) (skip : Bool) : Counted (Asking.swissSteps s t x skip) [.query (.files x)] :=
  Counted.one _ rfl _

theorem counted_swissVar {vars : List Text} {filter : List Nat} {v : LayerType} {d : Deed}
    (h : CountedD d ((swissLists v).map (fun x => .query (.files x)) ++ (swissHours s t filter v).flatMap (hourFetches s t v))) :
    CountedD (Deed.when (variableChosen vars v) d) (swissVar s t vars filter v) := by
  refine (h.when _).cast ?_
  unfold swissVar
  by_cases hc : ChosenVar vars v
  · rw [if_pos hc, if_pos ((variableChosen_iff ..).mpr hc)]
  · rw [if_neg hc, if_neg fun h => hc ((variableChosen_iff ..).mp h)]

theorem counted_swissRun (m : Libm) (cal : Swiss.Calendar) (dirs : Text → Bool) (vars : List Text) (filter : List Nat)
    (vertUrl : Text) :
    CountedD (Swiss.renderRunAsks net m w s cal dirs vars filter grid vertUrl t) (swissRequests s t vars filter vertUrl) := by
  have h1 := counted_swissVar (s := s) (t := t) (vars := vars) (filter := filter) (v := .cloudPrecip)
    (d := Deed.need (Asking.of (Swiss.forecastRun cal t)) fun run =>
      Deed.need (Asking.swissSteps s t .clct true) fun clct =>
      Deed.need (Asking.swissSteps s t .totPrec false) fun totPrec =>
      Deed.need (Asking.swissSteps s t .ceiling false) fun ceiling =>
        renderStepsAsks m run dirs clct filter (Asking.swissCloudPrecip net w grid clct totPrec ceiling))
    ((CountedD.need (Counted.of _) fun _ _ => CountedD.need (counted_swissSteps _ _) fun clct ⟨_, _, e1⟩ =>
      CountedD.need (counted_swissSteps _ _) fun totPrec ⟨_, _, e2⟩ => CountedD.need (counted_swissSteps _ _)
        fun ceiling ⟨_, _, e3⟩ => (CountedD.steps fun st _ => counted_swissCloudPrecip e1.symm e2.symm e3.symm st).cast
          (hours_listed (v := .cloudPrecip) rfl (by simp) e1.symm (hourFetches s t .cloudPrecip))).cast rfl)
  have h2 := counted_swissVar (s := s) (t := t) (vars := vars) (filter := filter) (v := .wind10m)
    (d := Deed.need (Asking.of (Swiss.forecastRun cal t)) fun run =>
      Deed.need (Asking.swissSteps s t .u10m false) fun u10m =>
      Deed.need (Asking.swissSteps s t .v10m false) fun v10m =>
      Deed.need (Asking.swissSteps s t .vmax10m false) fun vmax10m =>
        renderStepsAsks m run dirs u10m filter (Asking.swissWind net w grid u10m v10m vmax10m))
    ((CountedD.need (Counted.of _) fun _ _ => CountedD.need (counted_swissSteps _ _) fun _ ⟨_, _, e1⟩ =>
      CountedD.need (counted_swissSteps _ _) fun _ ⟨_, _, e2⟩ => CountedD.need (counted_swissSteps _ _)
        fun _ ⟨_, _, e3⟩ => (CountedD.steps fun st _ => counted_swissWind e1.symm e2.symm e3.symm st).cast
          (hours_listed (v := .wind10m) rfl (by simp) e1.symm (hourFetches s t .wind10m))).cast rfl)
  have h3 := counted_swissVar (s := s) (t := t) (vars := vars) (filter := filter) (v := .temp2m)
    (d := Deed.need (Asking.of (Swiss.forecastRun cal t)) fun run =>
      Deed.need (Asking.swissSteps s t .t2m false) fun t2m =>
        renderStepsAsks m run dirs t2m filter (Asking.swissTemp net w grid t2m))
    ((CountedD.need (Counted.of _) fun _ _ => CountedD.need (counted_swissSteps _ _) fun _ ⟨_, _, e1⟩ =>
      (CountedD.steps fun st _ => counted_swissTemp e1.symm st).cast
          (hours_listed (v := .temp2m) rfl (by simp) e1.symm (hourFetches s t .temp2m))).cast rfl)
  have h4 := fun hhl => counted_swissVar (s := s) (t := t) (vars := vars) (filter := filter) (v := .verticalCloud)
    (d := Deed.need (Asking.of (Swiss.forecastRun cal t)) fun run =>
      Deed.need (Asking.swissSteps s t .clc false) fun clc =>
        renderStepsAsks m run dirs clc filter (Asking.swissVerticalCloud net w grid hhl clc))
    ((CountedD.need (Counted.of _) fun _ _ => CountedD.need (counted_swissSteps _ _) fun _ ⟨_, _, e1⟩ =>
      (CountedD.steps fun st _ => counted_swissVerticalCloud e1.symm st).cast
          (hours_listed (v := .verticalCloud) rfl (by simp) e1.symm (hourFetches s t .verticalCloud))).cast rfl)
  have h5 := fun hhl => counted_swissVar (s := s) (t := t) (vars := vars) (filter := filter) (v := .verticalWind)
    (d := Deed.need (Asking.of (Swiss.forecastRun cal t)) fun run =>
      Deed.need (Asking.swissSteps s t .u false) fun u =>
      Deed.need (Asking.swissSteps s t .v false) fun v =>
        renderStepsAsks m run dirs u filter (Asking.swissVerticalWind net w grid hhl u v))
    ((CountedD.need (Counted.of _) fun _ _ => CountedD.need (counted_swissSteps _ _) fun _ ⟨_, _, e1⟩ =>
      CountedD.need (counted_swissSteps _ _) fun _ ⟨_, _, e2⟩ =>
      (CountedD.steps fun st _ => counted_swissVerticalWind e1.symm e2.symm st).cast
          (hours_listed (v := .verticalWind) rfl (by simp) e1.symm (hourFetches s t .verticalWind))).cast rfl)
  refine (h1.cons (h2.cons (h3.cons (((CountedD.need counted_readMultiUnstructured fun hhl _ =>
    (h4 hhl).cons ((h5 hhl).cons CountedD.nil)).when _).cons CountedD.nil)))).cast ?_
  unfold swissRequests
  simp only [List.append_assoc, List.append_nil]
  congr 3
  by_cases hv : ChosenVar vars .verticalCloud ∨ ChosenVar vars .verticalWind
  · rw [if_pos hv, if_pos ((vertical_chosen vars).mpr hv)]
  · rw [if_neg hv, if_neg fun h => hv ((vertical_chosen vars).mp h)]
    unfold swissVar
    rw [if_neg fun h => hv (.inl h), if_neg fun h => hv (.inr h)]
    rfl

end

/-- The requests of a call: the list of constant files, the horizontal constants, the newest run, and those for the run. -/
def swissCall (s : Swiss.Service) (hor vert : Swiss.Asset) (t : Instant) (vars : List Text) (filter : List Nat) : List Event :=
  [.query .assets] ++ fetchOf hor.href ++ [.query .newest] ++ swissRequests s t vars filter vert.href

/-- C179: what a call for the model of MeteoSwiss requests: the service is asked once for the list of constant files, once for
the newest run and once for the list of each file of the chosen variables; of these files those of the chosen hours are
downloaded, none that is not needed, none more often than said, and all if the call succeeds. -/
theorem C179_swiss (net : Net) (e : Environment) (vars : List Text) (filter : List Nat) (assets : List Swiss.Asset)
    (hor vert : Swiss.Asset) (refTimes : List Text) (t : Instant) (ha : e.service.assets = .ok assets)
    (hh : Swiss.findAsset assets Swiss.horConstId = some hor) (hv : Swiss.findAsset assets Swiss.vertConstId = some vert)
    (hr : e.service.refTimes = .ok refTimes) (ht : SwissSearch.findLatest e.calendar.parse refTimes = .ok t)
    (ev : List Event) (o : Outcome) (h : mainAsks net e "icon-ch1".toList vars filter ev o) :
    (requests ev).Subperm (swissCall e.service hor vert t vars filter) ∧
      (o = .done → (requests ev).Perm (swissCall e.service hor vert t vars filter)) := by
  have key : CountedD (mainAsks net e "icon-ch1".toList vars filter) ([.query .assets] ++ (fetchOf hor.href ++
      ([.query .newest] ++ swissRequests e.service t vars filter vert.href))) := by
    unfold mainAsks
    rw [if_pos rfl]
    refine CountedD.need (Counted.one _ rfl _) fun a ⟨_, _, e1⟩ => ?_
    rw [ha] at e1
    cases e1
    rw [hh, hv]
    refine (CountedD.need (Counted.of _) fun a ⟨_, _, e2⟩ => ?_).cast (List.nil_append _)
    cases e2
    refine CountedD.need counted_horConst fun grid _ => ?_
    refine (CountedD.need (Counted.of _) fun a ⟨_, _, e2⟩ => ?_).cast (List.nil_append _)
    cases e2
    refine CountedD.need (Counted.one _ rfl _) fun a ⟨_, _, e2⟩ => ?_
    rw [hr] at e2
    cases e2
    refine (CountedD.need (Counted.of _) fun a ⟨_, _, e2⟩ => ?_).cast (List.nil_append _)
    rw [ht] at e2
    cases e2
    exact counted_swissRun _ _ _ _ _ _
  exact key.cast (by simp [swissCall]) ev o h

/-! ## Order -/

/-- What is needed for a file is requested before it is written. -/
def NeedsSwiss (s : Swiss.Service) (t : Instant) (vertUrl : Text) (run : Run) (w : Write) (S : Event → Prop) : Prop :=
  ∃ out n, w.path = Output.path run n out ∧ (∀ p ∈ swissFetches out.variable n, ∀ q ∈ fetchAt s t p.1 p.2, S q) ∧
    (out.variable = .verticalCloud ∨ out.variable = .verticalWind → ∀ q ∈ fetchOf vertUrl, S q)

theorem upward_swiss (s : Swiss.Service) (t : Instant) (vertUrl : Text) (run : Run) : Upward (NeedsSwiss s t vertUrl run) := by
  rintro w S T hST ⟨out, n, h1, h2, h3⟩
  exact ⟨out, n, h1, fun p hp q hq => hST _ (h2 p hp q hq), fun hv q hq => hST _ (h3 hv q hq)⟩

section

variable {net : Net} (ht : ∀ url, ∃ a, net url a) {w : World} {s : Swiss.Service} {t : Instant}

theorem since_swissVar (v : LayerType) (read : RunStep → Asking Layers) (m : Libm) (run : Run) (dirs : Text → Bool)
    (first : List RunStep) (filter : List Nat) (vertUrl : Text) (L : List Event)
    (hL : v = .verticalCloud ∨ v = .verticalWind → ∀ q ∈ fetchOf vertUrl, q ∈ L)
    (hs : ∀ s ev r, read s ev r → written ev = []) (h : ∀ st, Counted (read st) (hourFetches s t v st.nr))
    (hv : ∀ s, Ends (read s) fun l => variableOf l = v) :
    Since (renderStepsAsks m run dirs first filter read) fun w S => NeedsSwiss s t vertUrl run w fun q => q ∈ L ∨ S q := by
  have up : Upward fun w S => NeedsSwiss s t vertUrl run w fun q => q ∈ L ∨ S q := fun w S T hST =>
    upward_swiss s t vertUrl run w _ _ fun q hq => hq.imp id (hST q)
  refine Since.par (d := runStepAsks m run dirs filter read) up fun st _ => Since.step up (hs st) (h st) ?_
  intro ls ev hls tr o htr x hx
  obtain ⟨out, hf, hp⟩ := (job_any htr).2.1 x hx
  have hvar : out.variable = v := by rw [hf.variable, hv st ev ls hls]
  refine ⟨out, st.nr, hp, fun p hp q hq => ?_, fun h q hq => ?_⟩
  · rw [hvar] at hp
    exact .inr (List.mem_flatMap.mpr ⟨p, hp, hq⟩)
  · rw [hvar] at h
    exact .inl (hL h q hq)

include ht in
theorem since_swissRun (m : Libm) (cal : Swiss.Calendar) (dirs : Text → Bool) (vars : List Text) (filter : List Nat)
    (grid : UnstructuredGrid) (vertUrl : Text) {run : Run} (hr : ∀ run', Swiss.forecastRun cal t = .ok run' → run' = run) :
    Since (Swiss.renderRunAsks net m w s cal dirs vars filter grid vertUrl t) (NeedsSwiss s t vertUrl run) := by
  have up := upward_swiss s t vertUrl run
  have plain : ∀ {d : Deed}, Since d (fun w S => NeedsSwiss s t vertUrl run w fun q => q ∈ ([] : List Event) ∨ S q) →
      Since d (NeedsSwiss s t vertUrl run) :=
    fun h => h.mono fun w _ => up w _ _ fun q hq => hq.elim (fun h => absurd h (by simp)) id
  have q : ∀ x skip, Verif.Sim (Asking.swissSteps s t x skip) (May.of (Swiss.steps s t x skip)) := fun x skip => Verif.Sim.one (.query (.files x)) rfl _
  refine .cons up (.when fun _ => ?_) (.cons up (.when fun _ => ?_) (.cons up (.when fun _ => ?_)
    (.cons up (.when fun _ => ?_) .nil)))
  · refine .skip (Verif.Sim.of _).silent (Counted.of _) up fun run' ⟨_, _, hr'⟩ => ?_
    obtain rfl := hr run' hr'.symm
    refine .skip (q _ _).silent (counted_swissSteps _ _) up fun _ ⟨_, _, e1⟩ => .skip (q _ _).silent (counted_swissSteps _ _) up
      fun _ ⟨_, _, e2⟩ => .skip (q _ _).silent (counted_swissSteps _ _) up fun _ ⟨_, _, e3⟩ => ?_
    exact plain (since_swissVar .cloudPrecip _ m _ dirs _ filter vertUrl [] (by simp)
      (fun st => (Verif.sim_swissCloudPrecip ht w grid _ _ _ st).silent)
      (fun st => counted_swissCloudPrecip e1.symm e2.symm e3.symm st) fun st => .bind fun _ => .bind fun _ => .bind fun _ =>
        .bind fun _ => .bind fun _ => .bind fun _ => .bind fun _ => .bind fun _ => .bind fun _ => .bind fun _ => .pure rfl)
  · refine .skip (Verif.Sim.of _).silent (Counted.of _) up fun run' ⟨_, _, hr'⟩ => ?_
    obtain rfl := hr run' hr'.symm
    refine .skip (q _ _).silent (counted_swissSteps _ _) up fun _ ⟨_, _, e1⟩ => .skip (q _ _).silent (counted_swissSteps _ _) up
      fun _ ⟨_, _, e2⟩ => .skip (q _ _).silent (counted_swissSteps _ _) up fun _ ⟨_, _, e3⟩ => ?_
    exact plain (since_swissVar .wind10m _ m _ dirs _ filter vertUrl [] (by simp)
      (fun st => (Verif.sim_swissWind ht w grid _ _ _ st).silent)
      (fun st => counted_swissWind e1.symm e2.symm e3.symm st) fun st => .bind fun _ => .bind fun _ => .bind fun _ =>
        .bind fun _ => .bind fun _ => .bind fun _ => .bind fun _ => .pure rfl)
  · refine .skip (Verif.Sim.of _).silent (Counted.of _) up fun run' ⟨_, _, hr'⟩ => ?_
    obtain rfl := hr run' hr'.symm
    refine .skip (q _ _).silent (counted_swissSteps _ _) up fun _ ⟨_, _, e1⟩ => ?_
    exact plain (since_swissVar .temp2m _ m _ dirs _ filter vertUrl [] (by simp)
      (fun st => (Verif.sim_swissTemp ht w grid _ st).silent)
      (fun st => counted_swissTemp e1.symm st) fun st => .bind fun _ => .bind fun _ => .pure rfl)
  · have up' : Upward fun w S => NeedsSwiss s t vertUrl run w fun q => q ∈ fetchOf vertUrl ∨ S q :=
      fun w S T hST => up w _ _ fun q hq => hq.imp id (hST q)
    refine Since.need (Verif.sim_swissHhl ht w grid vertUrl).silent counted_readMultiUnstructured up fun hhl _ => ?_
    refine .cons up' (.when fun _ => ?_) (.cons up' (.when fun _ => ?_) .nil)
    · refine .skip (Verif.Sim.of _).silent (Counted.of _) up' fun run' ⟨_, _, hr'⟩ => ?_
      obtain rfl := hr run' hr'.symm
      refine .skip (q _ _).silent (counted_swissSteps _ _) up' fun _ ⟨_, _, e1⟩ => ?_
      exact since_swissVar .verticalCloud _ m _ dirs _ filter vertUrl _ (fun _ _ hq => hq)
        (fun st => (Verif.sim_swissVerticalCloud ht w grid hhl _ st).silent)
        (fun st => counted_swissVerticalCloud e1.symm st) fun st => .bind fun _ => .bind fun _ => .bind fun _ => .pure rfl
    · refine .skip (Verif.Sim.of _).silent (Counted.of _) up' fun run' ⟨_, _, hr'⟩ => ?_
      obtain rfl := hr run' hr'.symm
      refine .skip (q _ _).silent (counted_swissSteps _ _) up' fun _ ⟨_, _, e1⟩ =>
        .skip (q _ _).silent (counted_swissSteps _ _) up' fun _ ⟨_, _, e2⟩ => ?_
      exact since_swissVar .verticalWind _ m _ dirs _ filter vertUrl _ (fun _ _ hq => hq)
        (fun st => (Verif.sim_swissVerticalWind ht w grid hhl _ _ st).silent)
        (fun st => counted_swissVerticalWind e1.symm e2.symm st) fun st => .bind fun _ => .bind fun _ => .bind fun _ =>
          .bind fun _ => .bind fun _ => .pure rfl

end

/-- C179: nothing is written before what it shows has been downloaded, for the model of MeteoSwiss: when a file of a variable at
an hour is written, the horizontal constants, the files of the hour and, for vertical variables, the vertical constants have been
requested, and the service has been asked for the newest run. -/
theorem C179_swiss_order (net : Net) (hn : ∀ url, ∃ a, net url a) (e : Environment) (vars : List Text) (filter : List Nat)
    (assets : List Swiss.Asset) (hor vert : Swiss.Asset) (refTimes : List Text) (t : Instant) (ha : e.service.assets = .ok assets)
    (hh : Swiss.findAsset assets Swiss.horConstId = some hor) (hv : Swiss.findAsset assets Swiss.vertConstId = some vert)
    (hr : e.service.refTimes = .ok refTimes) (ht : SwissSearch.findLatest e.calendar.parse refTimes = .ok t)
    (run : Run) (hrun : Swiss.forecastRun e.calendar t = .ok run)
    (pre post : List Event) (w : Write) (o : Outcome)
    (h : mainAsks net e "icon-ch1".toList vars filter (pre ++ .write w :: post) o) :
    Event.query .assets ∈ pre ∧ Event.query .newest ∈ pre ∧ (∀ q ∈ fetchOf hor.href, q ∈ pre) ∧
      (∃ out n, w.path = Output.path run n out) ∧
      ∀ out n, w.path = Output.path run n out → (∀ p ∈ swissFetches out.variable n, ∀ q ∈ fetchAt e.service t p.1 p.2, q ∈ pre) ∧
        (out.variable = .verticalCloud ∨ out.variable = .verticalWind → ∀ q ∈ fetchOf vert.href, q ∈ pre) := by
  have key : Since (mainAsks net e "icon-ch1".toList vars filter) fun w S => (S (.query .assets) ∧ S (.query .newest) ∧
      ∀ q ∈ fetchOf hor.href, S q) ∧ NeedsSwiss e.service t vert.href run w S := by
    have up : Upward fun w S => (S (.query .assets) ∧ S (.query .newest) ∧ ∀ q ∈ fetchOf hor.href, S q) ∧
        NeedsSwiss e.service t vert.href run w S := fun w S T hST h =>
      ⟨⟨hST _ h.1.1, hST _ h.1.2.1, fun q hq => hST _ (h.1.2.2 q hq)⟩, upward_swiss _ _ _ _ w _ _ hST h.2⟩
    have lift : ∀ {R : Write → (Event → Prop) → Prop} (l : List Event), Upward R → Upward fun w S => R w fun q => q ∈ l ∨ S q :=
      fun l hR w S T hST => hR w _ _ fun q hq => hq.imp id (hST q)
    unfold mainAsks
    rw [if_pos rfl]
    refine Since.need (Verif.Sim.one (.query .assets) rfl _).silent (Counted.one _ rfl _) up fun a ⟨_, _, e1⟩ => ?_
    rw [ha] at e1
    cases e1
    rw [hh, hv]
    have up1 := lift [.query .assets] up
    refine .skip (Verif.Sim.of _).silent (Counted.of _) up1 fun a ⟨_, _, e2⟩ => ?_
    cases e2
    refine Since.need (Verif.sim_swissHorConst hn _ _).silent counted_horConst up1 fun grid _ => ?_
    have up2 := lift (fetchOf hor.href) up1
    refine .skip (Verif.Sim.of _).silent (Counted.of _) up2 fun a ⟨_, _, e2⟩ => ?_
    cases e2
    refine Since.need (Verif.Sim.one (.query .newest) rfl _).silent (Counted.one _ rfl _) up2 fun a ⟨_, _, e2⟩ => ?_
    rw [hr] at e2
    cases e2
    have up3 := lift [.query .newest] up2
    refine .skip (Verif.Sim.of _).silent (Counted.of _) up3 fun a ⟨_, _, e2⟩ => ?_
    rw [ht] at e2
    cases e2
    refine (since_swissRun hn e.libm e.calendar e.dirs vars filter grid vert.href (run := run) fun run' h' =>
      Res.ok.inj (h'.symm.trans hrun)).mono fun w S hS => ⟨⟨?_, ?_, ?_⟩, ?_⟩
    · exact .inl (by simp)
    · exact .inr (.inr (.inl (by simp)))
    · exact fun q hq => .inr (.inl hq)
    · exact upward_swiss _ _ _ _ w _ _ (fun q hq => .inr (.inr (.inr hq))) hS
  obtain ⟨⟨h1, h2, h3⟩, out, n, hp, h4, h5⟩ := key _ _ h _ _ _ rfl
  refine ⟨h1, h2, h3, ⟨out, n, hp⟩, fun out' n' hp' => ?_⟩
  obtain ⟨rfl, rfl⟩ := C54_same_run run (forecastRun_no_slash hrun) (hp.symm.trans hp')
  exact ⟨h4, h5⟩

/-- C179: how many requests a call for the model of MeteoSwiss makes at most, with the numbers of hours listed: 12 questions to
the service, 2 files of constants, and 5, 3, 1, 1 and 2 files for an hour. -/
theorem C179_swiss_number (s : Swiss.Service) (hor vert : Swiss.Asset) (t : Instant) (vars : List Text) (filter : List Nat) :
    (swissCall s hor vert t vars filter).length ≤ 14 + 5 * hoursListed s t .cloudPrecip + 3 * hoursListed s t .wind10m +
      hoursListed s t .temp2m + hoursListed s t .verticalCloud + 2 * hoursListed s t .verticalWind ∧
    ∀ q, (swissCall s hor vert t vars filter).count (.query q) ≤ 1 := by
  have one : ∀ url, (fetchOf url).length ≤ 1 := by
    intro url
    unfold fetchOf
    split <;> simp
  have at1 : ∀ x n, (fetchAt s t x n).length ≤ 1 := by
    intro x n
    unfold fetchAt
    split
    · exact one _
    · simp
  have var : ∀ v, (swissVar s t vars filter v).length ≤ (swissLists v).length + (swissFetches v 0).length * hoursListed s t v := by
    intro v
    have hours : (swissHours s t filter v).length ≤ hoursListed s t v :=
      (List.length_filter_le _ _).trans (by simp)
    have each : ∀ n, (hourFetches s t v n).length ≤ (swissFetches v 0).length := by
      intro n
      cases v <;> simp only [hourFetches, swissFetches, List.flatMap_cons, List.flatMap_nil, List.length_append, List.length_nil,
        List.length_cons] <;> grind
    have all : ∀ l : List Nat, (l.flatMap (hourFetches s t v)).length ≤ (swissFetches v 0).length * l.length := by
      intro l
      induction l with
      | nil => simp
      | cons n l ih =>
        rw [List.flatMap_cons, List.length_append, List.length_cons, Nat.mul_add]
        have := each n
        omega
    unfold swissVar
    split
    · rw [List.length_append, List.length_map]
      exact Nat.add_le_add_left ((all _).trans (Nat.mul_le_mul_left _ hours)) _
    · simp
  constructor
  · have h1 := var .cloudPrecip
    have h2 := var .wind10m
    have h3 := var .temp2m
    have h4 := var .verticalCloud
    have h5 := var .verticalWind
    have h6 := one hor.href
    have h7 : (if ChosenVar vars .verticalCloud ∨ ChosenVar vars .verticalWind then fetchOf vert.href else []).length ≤ 1 := by
      split
      · exact one _
      · simp
    simp only [swissLists, swissFetches, List.length_cons, List.length_nil] at h1 h2 h3 h4 h5
    simp only [swissCall, swissRequests, List.length_append, List.length_cons, List.length_nil]
    omega
  · intro q
    have none1 : ∀ url, (fetchOf url).count (.query q) = 0 := by
      intro url
      unfold fetchOf
      split <;> simp
    have none2 : ∀ x n, (fetchAt s t x n).count (.query q) = 0 := by
      intro x n
      unfold fetchAt
      split
      · exact none1 _
      · simp
    have none3 : ∀ v, ((swissHours s t filter v).flatMap (hourFetches s t v)).count (.query q) = 0 := by
      intro v
      rw [List.count_eq_zero]
      intro h
      obtain ⟨n, -, h⟩ := List.mem_flatMap.mp h
      obtain ⟨p, -, h⟩ := List.mem_flatMap.mp h
      exact List.count_eq_zero.mp (none2 _ _) h
    have none4 : (if ChosenVar vars .verticalCloud ∨ ChosenVar vars .verticalWind then fetchOf vert.href else []).count
        (.query q) = 0 := by
      split
      · exact none1 _
      · simp
    have var : ∀ v, (swissVar s t vars filter v).count (.query q) ≤
        ((swissLists v).map fun x => Event.query (.files x)).count (.query q) := by
      intro v
      unfold swissVar
      split
      · rw [List.count_append, none3]
        exact Nat.le_refl _
      · simp
    have h1 := var .cloudPrecip
    have h2 := var .wind10m
    have h3 := var .temp2m
    have h4 := var .verticalCloud
    have h5 := var .verticalWind
    have total : ([Event.query .assets] ++ [Event.query .newest] ++ (swissLists .cloudPrecip).map (fun x => Event.query (.files x)) ++
        (swissLists .wind10m).map (fun x => Event.query (.files x)) ++ (swissLists .temp2m).map (fun x => Event.query (.files x)) ++
        (swissLists .verticalCloud).map (fun x => Event.query (.files x)) ++
        (swissLists .verticalWind).map fun x => Event.query (.files x)).count (.query q) ≤ 1 :=
      List.nodup_iff_count_le_one.mp (by simp [swissLists]) _
    simp only [List.count_append] at total
    simp only [swissCall, swissRequests, List.count_append, none1, none4]
    omega

end Verif.Props
