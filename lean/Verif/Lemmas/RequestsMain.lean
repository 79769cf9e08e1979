import Verif.Lemmas.Requests

/-!
# The program with requests recorded writes what it writes without
-/

namespace Verif

open MapTileRenderer

section

variable {net : Net} (ht : ∀ url, ∃ a, net url a) (w : World)
include ht

theorem sim_stream (name : Text) : Sim (Asking.stream net w name) (net.stream w name) := by
  unfold Asking.stream Net.stream
  split
  · exact (Sim.request ht name).bind fun _ => Sim.pure _
  · exact Sim.of _

theorem sim_readSingle (name : Text) : Sim (Asking.readSingle net w name) (net.readSingle w name) :=
  (sim_stream ht w name).bind fun _ => (Sim.lift _).bind fun _ => Sim.pure _

theorem sim_readMulti (name : Text) : Sim (Asking.readMulti net w name) (net.readMulti w name) :=
  (sim_stream ht w name).bind fun _ => Sim.lift _

theorem sim_readRectangular {T : Type} (name : Text) (missing : T) (transform : Fl → T) :
    Sim (Asking.readRectangular net w name missing transform) (net.readRectangular w name missing transform) :=
  (sim_readSingle ht w name).bind fun _ => Sim.lift _

theorem sim_readUnstructured {T : Type} (name : Text) (missing : T) (transform : Fl → T) (grid : UnstructuredGrid) :
    Sim (Asking.readUnstructured net w name missing transform grid) (net.readUnstructured w name missing transform grid) :=
  (sim_readSingle ht w name).bind fun _ => Sim.lift _

theorem sim_readMultiUnstructured {T : Type} (name : Text) (missing : T) (transform : Fl → T) (grid : UnstructuredGrid)
    (range : Option (Nat × Nat)) : Sim (Asking.readMultiUnstructured net w name missing transform grid range)
      (net.readMultiUnstructured w name missing transform grid range) :=
  (sim_readMulti ht w name).bind fun _ => Sim.lift _

theorem sim_dwdGrid (run : Run) (x : Dwd.SingleVar) (step : RunStep) :
    Sim (Asking.dwdGrid net w run x step) (net.dwdGrid w run x step) :=
  (Sim.lift _).bind fun _ => sim_readRectangular ht w _ _ _

theorem sim_dwdWind (run : Run) (step : RunStep) : Sim (Asking.dwdWind net w run step) (net.dwdWind w run step) :=
  (sim_dwdGrid ht w run _ step).bind fun _ => (sim_dwdGrid ht w run _ step).bind fun _ =>
    (sim_dwdGrid ht w run _ step).bind fun _ => (Sim.lift _).bind fun _ => Sim.pure _

theorem sim_dwdTemp (run : Run) (step : RunStep) : Sim (Asking.dwdTemp net w run step) (net.dwdTemp w run step) :=
  (sim_dwdGrid ht w run _ step).bind fun _ => Sim.pure _

theorem sim_dwdCloudPrecip (run : Run) (clct totPrec : List RunStep) (step : RunStep) :
    Sim (Asking.dwdCloudPrecip net w run clct totPrec step) (net.dwdCloudPrecip w run clct totPrec step) :=
  (Sim.lift _).bind fun _ => (sim_dwdGrid ht w run _ _).bind fun _ => (sim_dwdGrid ht w run _ _).bind fun _ =>
    (sim_dwdGrid ht w run _ _).bind fun _ => (Sim.lift _).bind fun _ => (sim_dwdGrid ht w run _ _).bind fun _ =>
    (sim_dwdGrid ht w run _ _).bind fun _ => (sim_dwdGrid ht w run _ _).bind fun _ => (Sim.lift _).bind fun _ => Sim.pure _

theorem sim_dwdLevel (run : Run) (file : Nat → Dwd.Req) (missing : UInt8) (transform : Fl → UInt8) (level : Nat) :
    Sim (Asking.dwdLevel net w run file missing transform level) (do
      let url ← Dwd.fileUrl run (file level)
      net.readRectangular w url missing transform : May _) :=
  (Sim.lift _).bind fun _ => sim_readRectangular ht w _ _ _

theorem sim_dwdHhl (run : Run) (levels : Nat × Nat) : Sim (Asking.dwdHhl net w run levels) (net.dwdHhl w run levels) :=
  Sim.par (fun level => sim_dwdLevel ht w run .hhl 0 hhlByte level) _

theorem sim_dwdClc (run : Run) (step : RunStep) (levels : Nat × Nat) :
    Sim (Asking.dwdClc net w run step levels) (net.dwdClc w run step levels) :=
  Sim.par (fun level => sim_dwdLevel ht w run (.level .clc step.nr) 0 clcByte level) _

theorem sim_dwdUV (run : Run) (x : Dwd.LevelVar) (step : RunStep) (levels : Nat × Nat) :
    Sim (Asking.dwdUV net w run x step levels) (net.dwdUV w run x step levels) :=
  Sim.par (fun level => sim_dwdLevel ht w run (.level x step.nr) 255 uvByte level) _

theorem sim_dwdVerticalCloud (run : Run) (levels : Nat × Nat) (hhl : List (LatLonValueGrid UInt8)) (step : RunStep) :
    Sim (Asking.dwdVerticalCloud net w run levels hhl step) (net.dwdVerticalCloud w run levels hhl step) :=
  (sim_dwdClc ht w run step levels).bind fun _ => (Sim.lift _).bind fun _ => Sim.pure _

theorem sim_dwdVerticalWind (run : Run) (levels : Nat × Nat) (hhl : List (LatLonValueGrid UInt8)) (step : RunStep) :
    Sim (Asking.dwdVerticalWind net w run levels hhl step) (net.dwdVerticalWind w run levels hhl step) :=
  (sim_dwdUV ht w run _ step levels).bind fun _ => (sim_dwdUV ht w run _ step levels).bind fun _ =>
    (Sim.lift _).bind fun _ => Sim.pure _

theorem sim_swissGrid (grid : UnstructuredGrid) (transform : Fl → Fl) (step : RunStep) :
    Sim (Asking.swissGrid net w grid transform step) (net.swissGrid w grid transform step) :=
  sim_readUnstructured ht w _ _ _ _

theorem sim_swissTemp (grid : UnstructuredGrid) (t2m : List RunStep) (step : RunStep) :
    Sim (Asking.swissTemp net w grid t2m step) (net.swissTemp w grid t2m step) :=
  (Sim.lift _).bind fun _ => (sim_swissGrid ht w grid _ _).bind fun _ => Sim.pure _

theorem sim_swissWind (grid : UnstructuredGrid) (u10m v10m vmax10m : List RunStep) (step : RunStep) :
    Sim (Asking.swissWind net w grid u10m v10m vmax10m step) (net.swissWind w grid u10m v10m vmax10m step) :=
  (Sim.lift _).bind fun _ => (Sim.lift _).bind fun _ => (Sim.lift _).bind fun _ =>
    (sim_swissGrid ht w grid _ _).bind fun _ => (sim_swissGrid ht w grid _ _).bind fun _ =>
    (sim_swissGrid ht w grid _ _).bind fun _ => (Sim.lift _).bind fun _ => Sim.pure _

theorem sim_swissCloudPrecip (grid : UnstructuredGrid) (clct totPrec ceiling : List RunStep) (step : RunStep) :
    Sim (Asking.swissCloudPrecip net w grid clct totPrec ceiling step) (net.swissCloudPrecip w grid clct totPrec ceiling step) :=
  (Sim.lift _).bind fun _ => (sim_swissGrid ht w grid _ _).bind fun _ => (sim_swissGrid ht w grid _ _).bind fun _ =>
    (sim_swissGrid ht w grid _ _).bind fun _ => (Sim.lift _).bind fun _ => (Sim.lift _).bind fun _ =>
    (Sim.lift _).bind fun _ => (sim_swissGrid ht w grid _ _).bind fun _ => (sim_swissGrid ht w grid _ _).bind fun _ =>
    (Sim.lift _).bind fun _ => Sim.pure _

theorem sim_swissHhl (grid : UnstructuredGrid) (url : Text) : Sim (Asking.swissHhl net w grid url) (net.swissHhl w grid url) :=
  sim_readMultiUnstructured ht w _ _ _ _ _

theorem sim_swissVerticalCloud (grid : UnstructuredGrid) (hhl : List (LatLonValueGrid UInt8)) (clc : List RunStep)
    (step : RunStep) : Sim (Asking.swissVerticalCloud net w grid hhl clc step) (net.swissVerticalCloud w grid hhl clc step) :=
  (Sim.lift _).bind fun _ => (sim_readMultiUnstructured ht w _ _ _ _ _).bind fun _ => (Sim.lift _).bind fun _ => Sim.pure _

theorem sim_swissVerticalWind (grid : UnstructuredGrid) (hhl : List (LatLonValueGrid UInt8)) (u v : List RunStep)
    (step : RunStep) : Sim (Asking.swissVerticalWind net w grid hhl u v step) (net.swissVerticalWind w grid hhl u v step) :=
  (Sim.lift _).bind fun _ => (Sim.lift _).bind fun _ => (sim_readMultiUnstructured ht w _ _ _ _ _).bind fun _ =>
    (sim_readMultiUnstructured ht w _ _ _ _ _).bind fun _ => (Sim.lift _).bind fun _ => Sim.pure _

theorem sim_swissHorConst (url : Text) : Sim (Asking.swissHorConst net w url) (net.swissHorConst w url) :=
  (sim_readMulti ht w url).bind fun _ => (Sim.lift _).bind fun _ => (Sim.lift _).bind fun _ => (Sim.lift _).bind fun _ =>
    (Sim.lift _).bind fun _ => (Sim.lift _).bind fun _ => Sim.lift _

end

theorem May.of_bind {α β : Type} (r : Res α) (f : α → Res β) :
    ((May.of r : May α) >>= fun a => (May.of (f a) : May β)) = May.of (r >>= f) := by
  funext x
  apply propext
  cases r with
  | ok a => exact ⟨fun h => (by
      rcases h with ⟨h, -⟩ | ⟨h, -⟩ | ⟨b, h, h'⟩
      · cases h
      · cases h
      · cases h; exact h'), fun h => .inr (.inr ⟨a, rfl, h⟩)⟩
  | err => exact ⟨fun h => (by
      rcases h with ⟨-, h⟩ | ⟨h, -⟩ | ⟨b, h, h'⟩
      · exact h
      · cases h
      · cases h), fun h => .inl ⟨rfl, h⟩⟩
  | panic => exact ⟨fun h => (by
      rcases h with ⟨h, -⟩ | ⟨-, h⟩ | ⟨b, h, h'⟩
      · cases h
      · exact h
      · cases h), fun h => .inr (.inl ⟨rfl, h⟩)⟩

theorem written_probe (available : Text → Bool) (urls : List Text) : written (Asking.probe available urls) = [] := by
  induction urls with
  | nil => rfl
  | cons url urls ih =>
    unfold Asking.probe
    split
    · exact ih
    · rfl

theorem sim_probe (available : Text → Bool) (urls : List Text) :
    Sim (fun ev r => ev = Asking.probe available urls ∧ r = .ok (urls.all available) : Asking Bool)
      (May.of (.ok (urls.all available))) where
  total := ⟨_, rfl⟩
  silent := by rintro ev r ⟨rfl, -⟩; exact written_probe ..
  good := by rintro ev r ⟨-, h⟩; exact h
  bad := by rintro ev r ⟨-, rfl⟩ h; exact absurd rfl (h _)
  covers := by rintro r h; exact ⟨_, rfl, h⟩

theorem sim_tryRuns (model : FcModel) (today : Date) (available : Text → Bool) (names : List Text) :
    Sim (Asking.tryRuns model today available names) (May.of (Dwd.tryRuns model today available names)) := by
  induction names with
  | nil => exact Sim.of _
  | cons name names ih =>
    have h : (May.of (Dwd.tryRuns model today available (name :: names)) : May (Option Run)) =
        ((May.of (Dwd.probeUrls ⟨model, today, name⟩ model.stepRange.2) : May (List Text)) >>= fun urls =>
          ((May.of (.ok (urls.all available)) : May Bool) >>= fun found => if found then
            (May.of (.ok (some ⟨model, today, name⟩)) : May (Option Run)) else May.of (Dwd.tryRuns model today available names))) := by
      have h1 : ∀ urls : List Text, ((May.of (.ok (urls.all available)) : May Bool) >>= fun found => if found then
            (May.of (.ok (some ⟨model, today, name⟩)) : May (Option Run)) else May.of (Dwd.tryRuns model today available names)) =
          May.of (if urls.all available then .ok (some ⟨model, today, name⟩) else Dwd.tryRuns model today available names) := by
        intro urls
        have := May.of_bind (.ok (urls.all available)) fun found => if found then
          (.ok (some ⟨model, today, name⟩) : Res (Option Run)) else Dwd.tryRuns model today available names
        refine Eq.trans ?_ this
        congr 1
        funext found
        cases found <;> rfl
      simp only [h1, May.of_bind]
      rfl
    rw [h]
    refine (Sim.lift _).bind fun urls => (sim_probe available urls).bind fun found => ?_
    cases found with
    | true => exact Sim.pure _
    | false => exact ih

theorem sim_findLatestRun (model : FcModel) (today now : Date) (available : Text → Bool) :
    Sim (Asking.findLatestRun model today now available) (May.of (Dwd.findLatestRun model today now available)) := by
  unfold Asking.findLatestRun Dwd.findLatestRun
  rw [← May.of_bind]
  refine (sim_tryRuns ..).bind fun found => ?_
  cases found with
  | none => exact Sim.pure _
  | some run => exact Sim.pure _

/-! ## Steps -/

theorem sim_runStep (m : Libm) (run : Run) (dirs : Text → Bool) (filter : List Nat) (read : RunStep → Asking Layers)
    (read' : RunStep → May Layers) (h : ∀ s, Sim (read s) (read' s)) (s : RunStep) :
    SimF (runStepAsks m run dirs filter read s) (runStepNet m run dirs filter read' s) := by
  unfold runStepAsks runStepNet
  split
  · refine { SimD.needs (h s) fun l => SimD.of _ with first := ?_ }
    rintro tr o (⟨h1, rfl, rfl⟩ | ⟨h1, rfl, rfl⟩ | ⟨a, h1, h2⟩)
    · obtain ⟨ev, hx⟩ := (h s).covers _ h1
      exact ⟨ev, .inl ⟨by simpa using hx, rfl⟩, (h s).silent _ _ hx⟩
    · obtain ⟨ev, hx⟩ := (h s).covers _ h1
      exact ⟨ev, .inr (.inl ⟨by simpa using hx, rfl⟩), (h s).silent _ _ hx⟩
    · obtain ⟨ev, hx⟩ := (h s).covers _ h1
      exact ⟨ev, .inr (.inr ⟨a, ev, _, hx, ⟨tr, h2, rfl⟩, rfl⟩), (h s).silent _ _ hx⟩
  · refine { SimD.done with first := ?_ }
    rintro tr o ⟨rfl, rfl⟩
    exact ⟨[], ⟨rfl, rfl⟩, rfl⟩

theorem sim_renderSteps (m : Libm) (run : Run) (dirs : Text → Bool) (steps : List RunStep) (filter : List Nat)
    (read : RunStep → Asking Layers) (read' : RunStep → May Layers) (h : ∀ s, Sim (read s) (read' s)) :
    SimD (renderStepsAsks m run dirs steps filter read) (renderStepsNet m run dirs steps filter read') :=
  SimD.par (d := runStepAsks m run dirs filter read) (e := runStepNet m run dirs filter read')
    fun s => sim_runStep m run dirs filter read read' h s

section

variable {net : Net} (ht : ∀ url, ∃ a, net url a)
include ht

theorem sim_dwdRun (m : Libm) (w : World) (dirs : Text → Bool) (vars : List Text) (filter : List Nat) (run : Run) :
    SimD (Dwd.renderRunAsks net m w dirs vars filter run) (Dwd.renderRunNet net m w dirs vars filter run) := by
  refine .cons (.when (.need (Sim.of _) fun totPrec => ?_) _) (.cons (.when ?_ _) (.cons (.when ?_ _) (.cons (.when
    (.needs (sim_dwdHhl ht w run _) fun hhl => .cons (.when ?_ _) (.cons (.when ?_ _) .nil)) _) .nil)))
  · exact sim_renderSteps _ _ _ _ _ _ _ fun s => sim_dwdCloudPrecip ht w run _ _ s
  · exact sim_renderSteps _ _ _ _ _ _ _ fun s => sim_dwdWind ht w run s
  · exact sim_renderSteps _ _ _ _ _ _ _ fun s => sim_dwdTemp ht w run s
  · exact sim_renderSteps _ _ _ _ _ _ _ fun s => sim_dwdVerticalCloud ht w run _ _ s
  · exact sim_renderSteps _ _ _ _ _ _ _ fun s => sim_dwdVerticalWind ht w run _ _ s

theorem sim_swissRun (m : Libm) (w : World) (s : Swiss.Service) (cal : Swiss.Calendar) (dirs : Text → Bool) (vars : List Text)
    (filter : List Nat) (grid : UnstructuredGrid) (vertUrl : Text) (t : Instant) :
    SimD (Swiss.renderRunAsks net m w s cal dirs vars filter grid vertUrl t)
      (Swiss.renderRunNet net m w s cal dirs vars filter grid vertUrl t) := by
  have q : ∀ x skip, Sim (Asking.swissSteps s t x skip) (May.of (Swiss.steps s t x skip)) := fun x skip => Sim.one _ rfl _
  refine .cons (.when (.need (Sim.of _) fun run => .need (q _ _) fun _ => .need (q _ _) fun _ => .need (q _ _) fun _ => ?_) _)
    (.cons (.when (.need (Sim.of _) fun run => .need (q _ _) fun _ => .need (q _ _) fun _ => .need (q _ _) fun _ => ?_) _)
    (.cons (.when (.need (Sim.of _) fun run => .need (q _ _) fun _ => ?_) _) (.cons (.when
    (.needs (sim_swissHhl ht w grid _) fun hhl =>
      .cons (.when (.need (Sim.of _) fun run => .need (q _ _) fun _ => ?_) _)
      (.cons (.when (.need (Sim.of _) fun run => .need (q _ _) fun _ => .need (q _ _) fun _ => ?_) _) .nil)) _) .nil)))
  · exact sim_renderSteps _ _ _ _ _ _ _ fun s => sim_swissCloudPrecip ht w grid _ _ _ s
  · exact sim_renderSteps _ _ _ _ _ _ _ fun s => sim_swissWind ht w grid _ _ _ s
  · exact sim_renderSteps _ _ _ _ _ _ _ fun s => sim_swissTemp ht w grid _ s
  · exact sim_renderSteps _ _ _ _ _ _ _ fun s => sim_swissVerticalCloud ht w grid _ _ s
  · exact sim_renderSteps _ _ _ _ _ _ _ fun s => sim_swissVerticalWind ht w grid _ _ _ s

theorem sim_main (e : Environment) (model : Text) (vars : List Text) (filter : List Nat) :
    SimD (mainAsks net e model vars filter) (mainNet net e model vars filter) := by
  unfold mainAsks mainNet
  split
  · exact .need (Sim.one _ rfl _) fun assets => .need (Sim.of _) fun hor => .needs (sim_swissHorConst ht e.world hor.href)
      fun grid => .need (Sim.of _) fun vert => .need (Sim.one _ rfl _) fun refTimes => .need (Sim.of _) fun t =>
      sim_swissRun ht _ _ _ _ _ _ _ _ _ _
  · split
    · exact .need (sim_findLatestRun ..) fun run => sim_dwdRun ht _ _ _ _ _ run
    · split
      · exact .need (sim_findLatestRun ..) fun run => sim_dwdRun ht _ _ _ _ _ run
      · exact SimD.done

end

end Verif
