import Verif.Lemmas.Program

/-!
# C87, C88, C90-C92: the whole program
-/

namespace Verif.Props

open Verif MapTileRenderer

/-! ## What the options select -/

/-- The variables that the variable filter selects: no filter, or the variable is in it. -/
def ChosenVar (vars : List Text) (v : LayerType) : Prop := vars = [] ∨ v.name ∈ vars

theorem variableChosen_iff (vars : List Text) (v : LayerType) : variableChosen vars v = true ↔ ChosenVar vars v := by
  unfold variableChosen ChosenVar
  simp [List.isEmpty_iff]

/-- The variable to which an output belongs. -/
def Output.variable : Output → LayerType
  | .cloudPrecipTile _ => .cloudPrecip
  | .windTile _ => .wind10m
  | .tempTile _ => .temp2m
  | .bin .precip => .cloudPrecip
  | .bin .weather => .cloudPrecip
  | .bin .wind10m => .wind10m
  | .bin .temp2m => .temp2m
  | .bin .verticalClouds => .verticalCloud
  | .bin .verticalWind => .verticalWind

/-- The variable of the layers read for a step. -/
def variableOf : Layers → LayerType
  | .cloudPrecip _ _ => .cloudPrecip
  | .wind _ => .wind10m
  | .temp _ => .temp2m
  | .verticalCloud _ => .verticalCloud
  | .verticalWind _ => .verticalWind

theorem FileOf.variable {m : Libm} {zooms : Nat × Nat} {l : Layers} {o : Output} {c : Content}
    (h : FileOf m zooms l o c) : o.variable = variableOf l := by
  cases h <;> rfl

/-! ## DWD -/

open Dwd

/-- The values of the file that DWD publishes for a variable and an hour of a run. -/
def dwdGrid (w : World) (run : Run) (x : SingleVar) (hour : Nat) : Res (LatLonValueGrid Fl) := do
  let url ← fileUrl run (.single x hour)
  w.readRectangular url (.fin (-1)) id

/-- The layers of a variable at an hour of a DWD run, in terms of the published files.  Precipitation is given
by the totals of this hour and the hour before. -/
def dwdLayers (w : World) (run : Run) : LayerType → Nat → Res Layers
  | .cloudPrecip, n => do
    let clct ← dwdGrid w run .clctMod n
    let prec0 ← dwdGrid w run .totPrec (n - 1)
    let prec1 ← dwdGrid w run .totPrec n
    let l ← CloudPrecipLayer.new clct prec0 prec1
    let clct ← dwdGrid w run .clctMod n
    let ceiling ← dwdGrid w run .ceiling n
    let ww ← dwdGrid w run .ww n
    let weather ← WeatherLayer.new clct ceiling (some ww)
    .ok (.cloudPrecip l weather)
  | .wind10m, n => do
    let u ← dwdGrid w run .u10m n
    let v ← dwdGrid w run .v10m n
    let gusts ← dwdGrid w run .vmax10m n
    let l ← WindLayer.new u v (some gusts)
    .ok (.wind l)
  | .temp2m, n => do
    let t ← dwdGrid w run .t2m n
    .ok (.temp ⟨t⟩)
  | .verticalCloud, n => do
    let hhl ← readHhl w run run.model.verticalLevels
    let clc ← readClc w run ⟨n, []⟩ run.model.verticalLevels
    let l ← VerticalCloudLayer.new hhl clc
    .ok (.verticalCloud l)
  | .verticalWind, n => do
    let hhl ← readHhl w run run.model.verticalLevels
    let u ← readUV w run .u ⟨n, []⟩ run.model.verticalLevels
    let v ← readUV w run .v ⟨n, []⟩ run.model.verticalLevels
    let l ← VerticalWindLayer.new hhl u v
    .ok (.verticalWind l)
  | .weather, _ => .err

theorem bind_congr' {α β : Type} {r : Res α} {f g : α → Res β} (h : ∀ a, r = .ok a → f a = g a) :
    Res.bind r f = Res.bind r g := by
  cases r with
  | ok a => exact h a rfl
  | err => rfl
  | panic => rfl

theorem bind_assoc' {α β γ : Type} (r : Res α) (f : α → Res β) (g : β → Res γ) :
    Res.bind (Res.bind r f) g = Res.bind r fun a => Res.bind (f a) g := by
  cases r <;> rfl

theorem readGrid_eq (w : World) (run : Run) (x : SingleVar) (s : RunStep) : readGrid w run x s = dwdGrid w run x s.nr :=
  rfl

theorem cloudPrecip_eq (w : World) (run : Run) {tp : List RunStep} (htp : run.model.forecastDiffSteps = .ok tp)
    {s : RunStep} (hs : s ∈ run.model.forecastSteps) :
    cloudPrecipLayers w run run.model.forecastSteps tp s = dwdLayers w run .cloudPrecip s.nr := by
  obtain ⟨diff, h1, h2⟩ := C55_dwd run.model
  rw [htp] at h1
  cases h1
  unfold cloudPrecipLayers readCloudPrecip
  rw [(h2 s hs).2]
  show Res.bind (Res.bind (dwdGrid w run .clctMod s.nr) _) _ = Res.bind (dwdGrid w run .clctMod s.nr) _
  rw [bind_assoc']
  refine bind_congr' fun clct _ => ?_
  show Res.bind (Res.bind (dwdGrid w run .totPrec (s.nr - 1)) _) _ = Res.bind (dwdGrid w run .totPrec (s.nr - 1)) _
  rw [bind_assoc']
  refine bind_congr' fun p0 _ => ?_
  show Res.bind (Res.bind (dwdGrid w run .totPrec s.nr) _) _ = Res.bind (dwdGrid w run .totPrec s.nr) _
  rw [bind_assoc']
  refine bind_congr' fun p1 _ => ?_
  refine bind_congr' fun l _ => ?_
  unfold readWeather
  show Res.bind (Res.bind (dwdGrid w run .clctMod s.nr) _) _ = Res.bind (dwdGrid w run .clctMod s.nr) _
  rw [bind_assoc']
  refine bind_congr' fun c _ => ?_
  show Res.bind (Res.bind (dwdGrid w run .ceiling s.nr) _) _ = Res.bind (dwdGrid w run .ceiling s.nr) _
  rw [bind_assoc']
  refine bind_congr' fun c _ => ?_
  show Res.bind (Res.bind (dwdGrid w run .ww s.nr) _) _ = Res.bind (dwdGrid w run .ww s.nr) _
  rw [bind_assoc']
  rfl

theorem wind_eq (w : World) (run : Run) (s : RunStep) : windLayers w run s = dwdLayers w run .wind10m s.nr := by
  unfold windLayers readWind
  show Res.bind (Res.bind (dwdGrid w run .u10m s.nr) _) _ = Res.bind (dwdGrid w run .u10m s.nr) _
  rw [bind_assoc']
  refine bind_congr' fun _ _ => ?_
  show Res.bind (Res.bind (dwdGrid w run .v10m s.nr) _) _ = Res.bind (dwdGrid w run .v10m s.nr) _
  rw [bind_assoc']
  refine bind_congr' fun _ _ => ?_
  show Res.bind (Res.bind (dwdGrid w run .vmax10m s.nr) _) _ = Res.bind (dwdGrid w run .vmax10m s.nr) _
  rw [bind_assoc']
  rfl

theorem temp_eq (w : World) (run : Run) (s : RunStep) : tempLayers w run s = dwdLayers w run .temp2m s.nr := by
  unfold tempLayers readTemp
  show Res.bind (Res.bind (dwdGrid w run .t2m s.nr) _) _ = Res.bind (dwdGrid w run .t2m s.nr) _
  rw [bind_assoc']
  rfl

theorem verticalCloud_eq (w : World) (run : Run) {hhl : List (LatLonValueGrid UInt8)}
    (hh : readHhl w run run.model.verticalLevels = .ok hhl) (s : RunStep) :
    verticalCloudLayers w run run.model.verticalLevels hhl s = dwdLayers w run .verticalCloud s.nr := by
  show _ = Res.bind (readHhl w run run.model.verticalLevels) _
  rw [hh]
  rfl

theorem verticalWind_eq (w : World) (run : Run) {hhl : List (LatLonValueGrid UInt8)}
    (hh : readHhl w run run.model.verticalLevels = .ok hhl) (s : RunStep) :
    verticalWindLayers w run run.model.verticalLevels hhl s = dwdLayers w run .verticalWind s.nr := by
  show _ = Res.bind (readHhl w run run.model.verticalLevels) _
  rw [hh]
  rfl

/-- The files that rendering a DWD run is to produce. -/
def DwdExpected (m : Libm) (w : World) (vars : List Text) (filter : List Nat) (run : Run) (p : Text) (c : Content) :
    Prop :=
  ∃ v, ChosenVar vars v ∧ Expected m run run.model.forecastSteps filter (fun s => dwdLayers w run v s.nr) p c

theorem expected_congr {m : Libm} {run : Run} {steps : List RunStep} {filter : List Nat}
    {read read' : RunStep → Res Layers} (h : ∀ s ∈ steps, read s = read' s) (p : Text) (c : Content) :
    Expected m run steps filter read p c ↔ Expected m run steps filter read' p c := by
  unfold Expected
  constructor
  · rintro ⟨s, hs, hc, l, hr, rest⟩; exact ⟨s, hs, hc, l, (h s hs) ▸ hr, rest⟩
  · rintro ⟨s, hs, hc, l, hr, rest⟩; exact ⟨s, hs, hc, l, (h s hs) ▸ hr, rest⟩

/-- The part of a run that renders a variable. -/
def Part (m : Libm) (w : World) (vars : List Text) (filter : List Nat) (run : Run) (v : LayerType) (x : Write) : Prop :=
  ChosenVar vars v ∧ Expected m run run.model.forecastSteps filter (fun s => dwdLayers w run v s.nr) x.path x.content

theorem writes_dwd (m : Libm) (w : World) (dirs : Text → Bool) (vars : List Text) (filter : List Nat) (run : Run) :
    Effect.Writes (Dwd.renderRun m w dirs vars filter run)
      fun x => DwdExpected m w vars filter run x.path x.content := by
  have hpart : ∀ (v : LayerType) (c : Bool) (e : Effect) (f : Write → Prop), (c = true ↔ ChosenVar vars v) →
      e.Writes f → (∀ x, f x ↔ Expected m run run.model.forecastSteps filter (fun s => dwdLayers w run v s.nr) x.path x.content) →
      (Effect.when c e).Writes (Part m w vars filter run v) := by
    intro v c e f hc he hf
    refine (Effect.Writes.when fun _ => he).congr fun x => ?_
    unfold Part
    rw [hc, hf]
  have h1 := hpart .cloudPrecip _ _ _ (variableChosen_iff vars _)
    (Effect.Writes.need (r := run.model.forecastDiffSteps) fun tp _ => writes_renderSteps m run dirs
      run.model.forecastSteps filter (cloudPrecipLayers w run run.model.forecastSteps tp)) (by
      intro x
      obtain ⟨tp, htp, _⟩ := C55_dwd run.model
      constructor
      · rintro ⟨tp', e, h⟩
        exact (expected_congr (fun s hs => cloudPrecip_eq w run e hs) _ _).mp h
      · intro h
        exact ⟨tp, htp, (expected_congr (fun s hs => cloudPrecip_eq w run htp hs) _ _).mpr h⟩)
  have h2 := hpart .wind10m _ _ _ (variableChosen_iff vars _)
    (writes_renderSteps m run dirs run.model.forecastSteps filter (windLayers w run))
    (fun x => expected_congr (fun s _ => wind_eq w run s) _ _)
  have h3 := hpart .temp2m _ _ _ (variableChosen_iff vars _)
    (writes_renderSteps m run dirs run.model.forecastSteps filter (tempLayers w run))
    (fun x => expected_congr (fun s _ => temp_eq w run s) _ _)
  have h4 : ∀ hhl, readHhl w run run.model.verticalLevels = .ok hhl → _ := fun hhl hh =>
    hpart .verticalCloud _ _ _ (variableChosen_iff vars _)
      (writes_renderSteps m run dirs run.model.forecastSteps filter (verticalCloudLayers w run run.model.verticalLevels hhl))
      (fun x => expected_congr (fun s _ => verticalCloud_eq w run hh s) _ _)
  have h5 : ∀ hhl, readHhl w run run.model.verticalLevels = .ok hhl → _ := fun hhl hh =>
    hpart .verticalWind _ _ _ (variableChosen_iff vars _)
      (writes_renderSteps m run dirs run.model.forecastSteps filter (verticalWindLayers w run run.model.verticalLevels hhl))
      (fun x => expected_congr (fun s _ => verticalWind_eq w run hh s) _ _)
  have h45 := Effect.Writes.when
    (c := vars.isEmpty || vars.contains LayerType.verticalCloud.name || vars.contains LayerType.verticalWind.name)
    fun _ => Effect.Writes.need (r := readHhl w run run.model.verticalLevels) fun hhl hh =>
      (h4 hhl hh).seq_cons ((h5 hhl hh).seq_cons .seq_nil)
  refine (h1.seq_cons (h2.seq_cons (h3.seq_cons (h45.seq_cons .seq_nil)))).congr fun x => ?_
  have hcond : (vars.isEmpty || vars.contains LayerType.verticalCloud.name || vars.contains LayerType.verticalWind.name)
      = true ↔ ChosenVar vars .verticalCloud ∨ ChosenVar vars .verticalWind := by
    unfold ChosenVar
    simp only [Bool.or_eq_true, List.isEmpty_iff, List.contains_iff_mem]
    tauto
  have hhhl : ∀ v, v = .verticalCloud ∨ v = .verticalWind → Part m w vars filter run v x →
      ∃ hhl, readHhl w run run.model.verticalLevels = .ok hhl := by
    rintro v hv ⟨_, s, _, _, l, hr, _⟩
    rcases hv with rfl | rfl <;>
    · cases hh : readHhl w run run.model.verticalLevels with
      | ok hhl => exact ⟨hhl, rfl⟩
      | err =>
        have : Res.bind (readHhl w run run.model.verticalLevels) _ = .ok l := hr
        rw [hh] at this; cases this
      | panic =>
        have : Res.bind (readHhl w run run.model.verticalLevels) _ = .ok l := hr
        rw [hh] at this; cases this
  constructor
  · rintro (h | h | h | ⟨_, hhl, hh, h | h | h⟩ | h)
    · exact ⟨_, h⟩
    · exact ⟨_, h⟩
    · exact ⟨_, h⟩
    · exact ⟨_, h⟩
    · exact ⟨_, h⟩
    · exact h.elim
    · exact h.elim
  · rintro ⟨v, h⟩
    cases v with
    | cloudPrecip => exact .inl h
    | wind10m => exact .inr (.inl h)
    | temp2m => exact .inr (.inr (.inl h))
    | verticalCloud =>
      obtain ⟨hhl, hh⟩ := hhhl _ (.inl rfl) h
      exact .inr (.inr (.inr (.inl ⟨hcond.mpr (.inl h.1), hhl, hh, .inl h⟩)))
    | verticalWind =>
      obtain ⟨hhl, hh⟩ := hhhl _ (.inr rfl) h
      exact .inr (.inr (.inr (.inl ⟨hcond.mpr (.inr h.1), hhl, hh, .inr (.inl h)⟩)))
    | weather =>
      obtain ⟨_, s, _, _, l, hr, _⟩ := h
      cases hr

theorem succeeds_dwd (m : Libm) (w : World) (dirs : Text → Bool) (vars : List Text) (filter : List Nat) (run : Run) :
    Effect.Succeeds (Dwd.renderRun m w dirs vars filter run)
      ((∀ v, ChosenVar vars v → v ≠ .weather → ∀ s ∈ run.model.forecastSteps, Chosen filter s →
        ∃ l, dwdLayers w run v s.nr = .ok l ∧ CanDraw m run.model.zoomRange l) ∧
      (ChosenVar vars .verticalCloud ∨ ChosenVar vars .verticalWind →
        ∃ hhl, readHhl w run run.model.verticalLevels = .ok hhl)) := by
  have hsteps : ∀ (v : LayerType) (read : RunStep → Res Layers),
      (∀ s ∈ run.model.forecastSteps, read s = dwdLayers w run v s.nr) →
      Effect.Succeeds (Effect.when (variableChosen vars v)
        (renderSteps m run dirs run.model.forecastSteps filter read))
        (ChosenVar vars v → ∀ s ∈ run.model.forecastSteps, Chosen filter s →
          ∃ l, dwdLayers w run v s.nr = .ok l ∧ CanDraw m run.model.zoomRange l) := by
    intro v read hr
    refine (Effect.Succeeds.when fun _ => succeeds_renderSteps m run dirs run.model.forecastSteps filter read).congr ?_
    rw [variableChosen_iff]
    refine imp_congr_right fun _ => forall_congr' fun s => forall_congr' fun hs => ?_
    rw [hr s hs]
  obtain ⟨tp, htp, _⟩ := C55_dwd run.model
  have hcp : Dwd.renderCloudPrecip m w dirs filter run = renderSteps m run dirs run.model.forecastSteps filter
      (cloudPrecipLayers w run run.model.forecastSteps tp) := by
    unfold Dwd.renderCloudPrecip Effect.need
    rw [htp]
  have h1 := hsteps .cloudPrecip _ (fun s hs => cloudPrecip_eq w run htp hs)
  rw [← hcp] at h1
  have h2 := hsteps .wind10m _ (fun s _ => wind_eq w run s)
  have h3 := hsteps .temp2m _ (fun s _ => temp_eq w run s)
  have h45 := Effect.Succeeds.when
    (c := vars.isEmpty || vars.contains LayerType.verticalCloud.name || vars.contains LayerType.verticalWind.name)
    fun _ => Effect.Succeeds.need (r := readHhl w run run.model.verticalLevels) fun hhl hh =>
      (hsteps .verticalCloud _ (fun s _ => verticalCloud_eq w run hh s)).seq_cons
        ((hsteps .verticalWind _ (fun s _ => verticalWind_eq w run hh s)).seq_cons .seq_nil)
  refine (h1.seq_cons (h2.seq_cons (h3.seq_cons (h45.seq_cons .seq_nil)))).congr ?_
  have hcond : (vars.isEmpty || vars.contains LayerType.verticalCloud.name || vars.contains LayerType.verticalWind.name)
      = true ↔ ChosenVar vars .verticalCloud ∨ ChosenVar vars .verticalWind := by
    unfold ChosenVar
    simp only [Bool.or_eq_true, List.isEmpty_iff, List.contains_iff_mem]
    tauto
  rw [hcond]
  constructor
  · rintro ⟨a1, a2, a3, a4, _⟩
    refine ⟨?_, fun h => (a4 h).imp fun _ h => h.1⟩
    intro v hv hw
    cases v with
    | cloudPrecip => exact a1 hv
    | wind10m => exact a2 hv
    | temp2m => exact a3 hv
    | verticalCloud => obtain ⟨_, _, h, _⟩ := a4 (.inl hv); exact h hv
    | verticalWind => obtain ⟨_, _, _, h, _⟩ := a4 (.inr hv); exact h hv
    | weather => exact absurd rfl hw
  · rintro ⟨a, b⟩
    refine ⟨fun h => a _ h (by simp), fun h => a _ h (by simp), fun h => a _ h (by simp), fun h => ?_, trivial⟩
    obtain ⟨hhl, hh⟩ := b h
    exact ⟨hhl, hh, fun h => a _ h (by simp), fun h => a _ h (by simp), trivial⟩

theorem variable_of_dwd {w : World} {run : Run} {v : LayerType} {n : Nat} {l : Layers}
    (h : dwdLayers w run v n = .ok l) : variableOf l = v := by
  cases v with
  | cloudPrecip =>
    simp only [dwdLayers, Res.bind_eq_ok, Res.ok.injEq] at h
    obtain ⟨_, _, _, _, _, _, _, _, _, _, _, _, _, _, _, _, rfl⟩ := h
    rfl
  | wind10m =>
    simp only [dwdLayers, Res.bind_eq_ok, Res.ok.injEq] at h
    obtain ⟨_, _, _, _, _, _, _, _, rfl⟩ := h
    rfl
  | temp2m =>
    simp only [dwdLayers, Res.bind_eq_ok, Res.ok.injEq] at h
    obtain ⟨_, _, rfl⟩ := h
    rfl
  | verticalCloud =>
    simp only [dwdLayers, Res.bind_eq_ok, Res.ok.injEq] at h
    obtain ⟨_, _, _, _, _, _, rfl⟩ := h
    rfl
  | verticalWind =>
    simp only [dwdLayers, Res.bind_eq_ok, Res.ok.injEq] at h
    obtain ⟨_, _, _, _, _, _, _, _, rfl⟩ := h
    rfl
  | weather => cases h

/-! ## C87: the variable filter, DWD -/

/-- C87: whatever happens, every file that rendering a DWD run writes belongs to a variable and a step that the
filters select. -/
theorem C87_dwd_only (m : Libm) (w : World) (dirs : Text → Bool) (vars : List Text) (filter : List Nat) (run : Run)
    (tr : List Write) (o : Outcome) (h : Dwd.renderRun m w dirs vars filter run tr o) (x : Write) (hx : x ∈ tr) :
    ∃ out : Output, ChosenVar vars out.variable ∧ ∃ s ∈ run.model.forecastSteps, Chosen filter s ∧
      x.path = out.path run s.nr ∧ ∃ l, dwdLayers w run out.variable s.nr = .ok l ∧
        FileOf m run.model.zoomRange l out x.content := by
  obtain ⟨v, hv, s, hs, hc, l, hr, out, hf, hp⟩ := (writes_dwd m w dirs vars filter run).only tr o h x hx
  have e : out.variable = v := hf.variable.trans (variable_of_dwd hr)
  exact ⟨out, e ▸ hv, s, hs, hc, hp, l, e ▸ hr, hf⟩

theorem dwdExpected_functional {m : Libm} {w : World} {vars : List Text} {filter : List Nat} {run : Run}
    (hn : '/' ∉ run.name) {p : Text} {c c' : Content} (h : DwdExpected m w vars filter run p c)
    (h' : DwdExpected m w vars filter run p c') : c = c' := by
  obtain ⟨v, hv, s, hs1, hc, l, hr, out, hf, hp⟩ := h
  obtain ⟨v', hv', s', hs1', hc', l', hr', out', hf', hp'⟩ := h'
  obtain ⟨e1, e2⟩ := C54_same_run run hn (hp.symm.trans hp')
  subst e2
  have ev : v = v' := by
    rw [← variable_of_dwd hr, ← variable_of_dwd hr', ← hf.variable, ← hf'.variable]
  subst ev
  simp only at hr hr'
  rw [e1, hr'] at hr
  cases hr
  exact hf.functional hf'

/-- C87: after a DWD run that succeeds, the files of all variables and steps that the filters select are there
with the right contents, and all other files are as before. -/
theorem C87_dwd_files (m : Libm) (w : World) (dirs : Text → Bool) (vars : List Text) (filter : List Nat) (run : Run)
    (hn : '/' ∉ run.name) (tr : List Write) (h : Dwd.renderRun m w dirs vars filter run tr .done) (before : Tree)
    (p : Text) :
    (∀ c, DwdExpected m w vars filter run p c → before.write tr p = some c) ∧
    ((∀ c, ¬DwdExpected m w vars filter run p c) → before.write tr p = before p) := by
  have hw := writes_dwd m w dirs vars filter run
  constructor
  · intro c hc
    refine (before.write_eq tr p).1 c ⟨⟨p, c⟩, hw.all tr h _ hc, rfl⟩ fun x hx hp => ?_
    have := hw.only tr _ h x hx
    rw [hp] at this
    exact dwdExpected_functional hn this hc
  · intro hc
    refine (before.write_eq tr p).2 fun x hx hp => hc x.content ?_
    have := hw.only tr _ h x hx
    rwa [hp] at this

/-! ## C90: nothing is missing without notice, DWD -/

/-- The published files that a variable at an hour needs. -/
def Uses (model : FcModel) : LayerType → Nat → Req → Prop
  | .cloudPrecip, n, r =>
    r ∈ [Req.single .clctMod n, .single .totPrec (n - 1), .single .totPrec n, .single .ceiling n, .single .ww n]
  | .wind10m, n, r => r ∈ [Req.single .u10m n, .single .v10m n, .single .vmax10m n]
  | .temp2m, n, r => r = .single .t2m n
  | .verticalCloud, n, r => ∃ k, model.verticalLevels.1 ≤ k ∧ k ≤ model.verticalLevels.2 ∧
      (r = .hhl k ∨ r = .level .clc n k)
  | .verticalWind, n, r => ∃ k, model.verticalLevels.1 ≤ k ∧ k ≤ model.verticalLevels.2 ∧
      (r = .hhl k ∨ r = .level .u n k ∨ r = .level .v n k)
  | .weather, _, _ => False

/-- A published file can be downloaded and read. -/
def Readable (w : World) (run : Run) (r : Req) : Prop :=
  ∃ url body doc rest, fileUrl run r = .ok url ∧ w.download url = some body ∧
    Grib2.readSingleDoc (w.bunzip body) = .ok (doc, rest)

theorem readSingle_ok {w : World} {run : Run} {r : Req} {url : Text} {doc : Grib2.Document} (hm : IsDwd run.model)
    (hu : fileUrl run r = .ok url) (h : w.readSingle url = .ok doc) : Readable w run r := by
  obtain ⟨url', hu', h1, h2⟩ := C52_download hm r
  rw [hu] at hu'
  cases hu'
  unfold World.readSingle World.stream at h
  rw [if_pos h1] at h
  simp only [Res.bind_eq_ok, Res.ok.injEq, h2, if_true] at h
  obtain ⟨s, ⟨body, hb, rfl⟩, ⟨doc', rest⟩, hd, _⟩ := h
  refine ⟨url, body, doc', rest, hu, ?_, hd⟩
  cases hw : w.download url with
  | none => rw [hw] at hb; cases hb
  | some b =>
    rw [hw] at hb
    have hb : Res.ok b = .ok body := hb
    cases hb
    rfl

theorem readRect_ok {T : Type} {w : World} {run : Run} {r : Req} {missing : T} {f : Fl → T} {g : LatLonValueGrid T}
    (hm : IsDwd run.model)
    (h : Res.bind (fileUrl run r) (fun url => w.readRectangular url missing f) = .ok g) : Readable w run r := by
  change (fileUrl run r >>= fun url => w.readRectangular url missing f) = .ok g at h
  rw [Res.bind_eq_ok] at h
  obtain ⟨url, hu, h⟩ := h
  unfold World.readRectangular at h
  rw [Res.bind_eq_ok] at h
  obtain ⟨doc, hd, _⟩ := h
  exact readSingle_ok hm hu hd

theorem levels_ok {T : Type} {w : World} {run : Run} {r : Nat → Req} {missing : T} {f : Fl → T}
    {gs : List (LatLonValueGrid T)} {a b : Nat} (hm : IsDwd run.model)
    (h : Res.mapM (fun k => Res.bind (fileUrl run (r k)) fun url => w.readRectangular url missing f) (rangeIncl a b)
      = .ok gs) {k : Nat} (h1 : a ≤ k) (h2 : k ≤ b) : Readable w run (r k) := by
  rw [Res.mapM_ok_iff] at h
  obtain ⟨i, hi, e⟩ := List.mem_iff_getElem.mp (mem_rangeIncl.mpr ⟨h1, h2⟩)
  have := List.Forall₂.get h hi (by rw [← h.length_eq]; exact hi)
  simp only [List.get_eq_getElem, e] at this
  exact readRect_ok hm this

theorem uses_readable {w : World} {run : Run} (hm : IsDwd run.model) {v : LayerType} {n : Nat} {l : Layers}
    (h : dwdLayers w run v n = .ok l) (r : Req) (hr : Uses run.model v n r) : Readable w run r := by
  cases v with
  | cloudPrecip =>
    simp only [dwdLayers, Res.bind_eq_ok] at h
    obtain ⟨_, a1, _, a2, _, a3, _, _, _, _, _, a4, _, a5, _⟩ := h
    simp only [Uses, List.mem_cons, List.not_mem_nil, or_false] at hr
    rcases hr with rfl | rfl | rfl | rfl | rfl
    · exact readRect_ok hm a1
    · exact readRect_ok hm a2
    · exact readRect_ok hm a3
    · exact readRect_ok hm a4
    · exact readRect_ok hm a5
  | wind10m =>
    simp only [dwdLayers, Res.bind_eq_ok] at h
    obtain ⟨_, a1, _, a2, _, a3, _⟩ := h
    simp only [Uses, List.mem_cons, List.not_mem_nil, or_false] at hr
    rcases hr with rfl | rfl | rfl
    · exact readRect_ok hm a1
    · exact readRect_ok hm a2
    · exact readRect_ok hm a3
  | temp2m =>
    simp only [dwdLayers, Res.bind_eq_ok] at h
    obtain ⟨_, a1, _⟩ := h
    cases hr
    exact readRect_ok hm a1
  | verticalCloud =>
    simp only [dwdLayers, Res.bind_eq_ok] at h
    obtain ⟨_, a1, _, a2, _⟩ := h
    obtain ⟨k, k1, k2, rfl | rfl⟩ := hr
    · exact levels_ok (r := fun k => .hhl k) hm a1 k1 k2
    · exact levels_ok (r := fun k => .level .clc n k) hm a2 k1 k2
  | verticalWind =>
    simp only [dwdLayers, Res.bind_eq_ok] at h
    obtain ⟨_, a1, _, a2, _, a3, _⟩ := h
    obtain ⟨k, k1, k2, rfl | rfl | rfl⟩ := hr
    · exact levels_ok (r := fun k => .hhl k) hm a1 k1 k2
    · exact levels_ok (r := fun k => .level .u n k) hm a2 k1 k2
    · exact levels_ok (r := fun k => .level .v n k) hm a3 k1 k2
  | weather => cases h

/-- C90: if rendering a DWD run succeeds, every published file that a selected variable needs at a selected step
was downloaded and read; a file that is not available is never passed over. -/
theorem C90_dwd (m : Libm) (w : World) (dirs : Text → Bool) (vars : List Text) (filter : List Nat) (run : Run)
    (hm : IsDwd run.model) (tr : List Write) (h : Dwd.renderRun m w dirs vars filter run tr .done) (v : LayerType)
    (hv : ChosenVar vars v) (s : RunStep) (hs : s ∈ run.model.forecastSteps) (hc : Chosen filter s) (r : Req)
    (hr : Uses run.model v s.nr r) : Readable w run r := by
  by_cases hw : v = .weather
  · subst hw; exact hr.elim
  · obtain ⟨l, hl, _⟩ := ((succeeds_dwd m w dirs vars filter run).only tr h).1 v hv hw s hs hc
    exact uses_readable hm hl r hr

/-- C90: rendering a DWD run can succeed iff all selected layers can be read and drawn (and the level heights read
if a vertical variable is selected), and then it always does. -/
theorem C90_dwd_iff (m : Libm) (w : World) (dirs : Text → Bool) (vars : List Text) (filter : List Nat) (run : Run) :
    let ok := (∀ v, ChosenVar vars v → v ≠ .weather → ∀ s ∈ run.model.forecastSteps, Chosen filter s →
        ∃ l, dwdLayers w run v s.nr = .ok l ∧ CanDraw m run.model.zoomRange l) ∧
      (ChosenVar vars .verticalCloud ∨ ChosenVar vars .verticalWind →
        ∃ hhl, readHhl w run run.model.verticalLevels = .ok hhl)
    ((∃ tr, Dwd.renderRun m w dirs vars filter run tr .done) ↔ ok) ∧
    (ok → ∀ tr o, Dwd.renderRun m w dirs vars filter run tr o → o = .done) := by
  have h := succeeds_dwd m w dirs vars filter run
  exact ⟨⟨fun ⟨tr, ht⟩ => h.only tr ht, h.can⟩, h.always⟩

/-! ## C92: nothing else is used, DWD -/

theorem readRect_congr {T : Type} {w w' : World} {run : Run} {r : Req} {missing : T} {f : Fl → T}
    (h : ∀ url, fileUrl run r = .ok url → w.stream url = w'.stream url) :
    Res.bind (fileUrl run r) (fun url => w.readRectangular url missing f) =
      Res.bind (fileUrl run r) (fun url => w'.readRectangular url missing f) := by
  refine bind_congr' fun url hu => ?_
  unfold World.readRectangular World.readSingle
  rw [h url hu]

theorem mapM_congr {α β : Type} {f g : α → Res β} {l : List α} (h : ∀ a ∈ l, f a = g a) : Res.mapM f l = Res.mapM g l := by
  induction l with
  | nil => rfl
  | cons a l ih =>
    unfold Res.mapM
    rw [h a List.mem_cons_self, ih fun b hb => h b (List.mem_cons_of_mem _ hb)]

/-- The two worlds offer the same file. -/
def SameFile (w w' : World) (run : Run) (r : Req) : Prop := ∀ url, fileUrl run r = .ok url → w.stream url = w'.stream url

theorem dwdGrid_congr {w w' : World} {run : Run} {x : SingleVar} {n : Nat} (h : SameFile w w' run (.single x n)) :
    dwdGrid w run x n = dwdGrid w' run x n := readRect_congr h

theorem readHhl_congr {w w' : World} {run : Run} {a b : Nat} (h : ∀ k, a ≤ k → k ≤ b → SameFile w w' run (.hhl k)) :
    readHhl w run (a, b) = readHhl w' run (a, b) :=
  mapM_congr fun k hk => readRect_congr (h k (mem_rangeIncl.mp hk).1 (mem_rangeIncl.mp hk).2)

theorem dwdLayers_congr {w w' : World} {run : Run} {v : LayerType} {n : Nat}
    (h : ∀ r, Uses run.model v n r → SameFile w w' run r) : dwdLayers w run v n = dwdLayers w' run v n := by
  cases v with
  | cloudPrecip =>
    simp only [dwdLayers]
    rw [dwdGrid_congr (x := .clctMod) (n := n) (h _ (by simp [Uses])),
      dwdGrid_congr (x := .totPrec) (n := n - 1) (h _ (by simp [Uses])),
      dwdGrid_congr (x := .totPrec) (n := n) (h _ (by simp [Uses])),
      dwdGrid_congr (x := .ceiling) (n := n) (h _ (by simp [Uses])),
      dwdGrid_congr (x := .ww) (n := n) (h _ (by simp [Uses]))]
  | wind10m =>
    simp only [dwdLayers]
    rw [dwdGrid_congr (x := .u10m) (n := n) (h _ (by simp [Uses])),
      dwdGrid_congr (x := .v10m) (n := n) (h _ (by simp [Uses])),
      dwdGrid_congr (x := .vmax10m) (n := n) (h _ (by simp [Uses]))]
  | temp2m =>
    simp only [dwdLayers]
    rw [dwdGrid_congr (x := .t2m) (n := n) (h _ rfl)]
  | verticalCloud =>
    simp only [dwdLayers]
    have h1 : readHhl w run run.model.verticalLevels = readHhl w' run run.model.verticalLevels :=
      readHhl_congr fun k k1 k2 => h _ ⟨k, k1, k2, .inl rfl⟩
    have h2 : readClc w run ⟨n, []⟩ run.model.verticalLevels = readClc w' run ⟨n, []⟩ run.model.verticalLevels :=
      mapM_congr fun k hk => readRect_congr
        (h _ ⟨k, (mem_rangeIncl.mp hk).1, (mem_rangeIncl.mp hk).2, .inr rfl⟩)
    rw [h1, h2]
  | verticalWind =>
    simp only [dwdLayers]
    have h1 : readHhl w run run.model.verticalLevels = readHhl w' run run.model.verticalLevels :=
      readHhl_congr fun k k1 k2 => h _ ⟨k, k1, k2, .inl rfl⟩
    have h2 : readUV w run .u ⟨n, []⟩ run.model.verticalLevels = readUV w' run .u ⟨n, []⟩ run.model.verticalLevels :=
      mapM_congr fun k hk => readRect_congr
        (h _ ⟨k, (mem_rangeIncl.mp hk).1, (mem_rangeIncl.mp hk).2, .inr (.inl rfl)⟩)
    have h3 : readUV w run .v ⟨n, []⟩ run.model.verticalLevels = readUV w' run .v ⟨n, []⟩ run.model.verticalLevels :=
      mapM_congr fun k hk => readRect_congr
        (h _ ⟨k, (mem_rangeIncl.mp hk).1, (mem_rangeIncl.mp hk).2, .inr (.inr rfl)⟩)
    rw [h1, h2, h3]
  | weather => rfl

/-- C92: what rendering a DWD run does is determined by the published files that the selected variables need at the
selected steps (and the level heights if a vertical variable is selected); other files, other runs and
local files have no influence. -/
theorem C92_dwd (m : Libm) (w w' : World) (dirs : Text → Bool) (vars : List Text) (filter : List Nat) (run : Run)
    (h : ∀ v, ChosenVar vars v → ∀ s ∈ run.model.forecastSteps, Chosen filter s → ∀ r, Uses run.model v s.nr r →
      SameFile w w' run r)
    (hh : ChosenVar vars .verticalCloud ∨ ChosenVar vars .verticalWind → ∀ k, run.model.verticalLevels.1 ≤ k →
      k ≤ run.model.verticalLevels.2 → SameFile w w' run (.hhl k)) (tr : List Write) (o : Outcome) :
    Dwd.renderRun m w dirs vars filter run tr o ↔ Dwd.renderRun m w' dirs vars filter run tr o := by
  have key : ∀ (v : LayerType) (read read' : RunStep → Res Layers), 
      (∀ s ∈ run.model.forecastSteps, read s = dwdLayers w run v s.nr) →
      (∀ s ∈ run.model.forecastSteps, read' s = dwdLayers w' run v s.nr) → variableChosen vars v = true →
      renderSteps m run dirs run.model.forecastSteps filter read =
        renderSteps m run dirs run.model.forecastSteps filter read' := by
    intro v read read' h1 h2 hv
    refine renderSteps_congr fun s hs hc => ?_
    rw [h1 s hs, h2 s hs]
    exact dwdLayers_congr (h v ((variableChosen_iff _ _).mp hv) s hs hc)
  obtain ⟨tp, htp, _⟩ := C55_dwd run.model
  have e : Dwd.renderRun m w dirs vars filter run = Dwd.renderRun m w' dirs vars filter run := by
    have e1 : Effect.when (variableChosen vars .cloudPrecip) (Dwd.renderCloudPrecip m w dirs filter run) =
        Effect.when (variableChosen vars .cloudPrecip) (Dwd.renderCloudPrecip m w' dirs filter run) :=
      Effect.when_congr fun hv => Effect.need_congr rfl fun tp htp =>
        key .cloudPrecip _ _ (fun s hs => cloudPrecip_eq w run htp hs) (fun s hs => cloudPrecip_eq w' run htp hs) hv
    have e2 : Effect.when (variableChosen vars .wind10m) (Dwd.renderWind m w dirs filter run) =
        Effect.when (variableChosen vars .wind10m) (Dwd.renderWind m w' dirs filter run) :=
      Effect.when_congr fun hv => key .wind10m _ _ (fun s _ => wind_eq w run s) (fun s _ => wind_eq w' run s) hv
    have e3 : Effect.when (variableChosen vars .temp2m) (Dwd.renderTemp m w dirs filter run) =
        Effect.when (variableChosen vars .temp2m) (Dwd.renderTemp m w' dirs filter run) :=
      Effect.when_congr fun hv => key .temp2m _ _ (fun s _ => temp_eq w run s) (fun s _ => temp_eq w' run s) hv
    have e4 : ∀ hhl, readHhl w run run.model.verticalLevels = .ok hhl →
        readHhl w' run run.model.verticalLevels = .ok hhl →
        Effect.when (variableChosen vars .verticalCloud) (Dwd.renderVerticalCloud m w dirs filter run hhl) =
        Effect.when (variableChosen vars .verticalCloud) (Dwd.renderVerticalCloud m w' dirs filter run hhl) :=
      fun hhl a a' => Effect.when_congr fun hv => key .verticalCloud _ _ (fun s _ => verticalCloud_eq w run a s)
        (fun s _ => verticalCloud_eq w' run a' s) hv
    have e5 : ∀ hhl, readHhl w run run.model.verticalLevels = .ok hhl →
        readHhl w' run run.model.verticalLevels = .ok hhl →
        Effect.when (variableChosen vars .verticalWind) (Dwd.renderVerticalWind m w dirs filter run hhl) =
        Effect.when (variableChosen vars .verticalWind) (Dwd.renderVerticalWind m w' dirs filter run hhl) :=
      fun hhl a a' => Effect.when_congr fun hv => key .verticalWind _ _ (fun s _ => verticalWind_eq w run a s)
        (fun s _ => verticalWind_eq w' run a' s) hv
    unfold Dwd.renderRun
    rw [e1, e2, e3]
    congr 4
    refine congrArg (fun e => [e]) (Effect.when_congr fun hv => ?_)
    have hv' : ChosenVar vars .verticalCloud ∨ ChosenVar vars .verticalWind := by
      unfold ChosenVar
      simp only [Bool.or_eq_true, List.isEmpty_iff, List.contains_iff_mem] at hv
      tauto
    have eh : readHhl w run run.model.verticalLevels = readHhl w' run run.model.verticalLevels :=
      readHhl_congr (hh hv')
    refine Effect.need_congr eh fun hhl a => ?_
    rw [e4 hhl a (eh ▸ a), e5 hhl a (eh ▸ a)]
  rw [e]

end Verif.Props
