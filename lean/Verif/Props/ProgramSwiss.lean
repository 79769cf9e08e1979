import Verif.Props.Program

/-!
# C87, C88, C90-C92: the whole program, MeteoSwiss and the command line
-/

namespace Verif.Props

open Verif MapTileRenderer

/-! ## MeteoSwiss -/

open Swiss

/-- The steps at which a variable is rendered: those of its (first) file list. -/
def swissSteps (s : Service) (t : Instant) : LayerType → Res (List RunStep)
  | .cloudPrecip => Swiss.steps s t .clct true
  | .wind10m => Swiss.steps s t .u10m false
  | .temp2m => Swiss.steps s t .t2m false
  | .verticalCloud => Swiss.steps s t .clc false
  | .verticalWind => Swiss.steps s t .u false
  | .weather => .err

/-- The layers of a variable at a step of a MeteoSwiss run. -/
def swissLayers (w : World) (s : Service) (grid : UnstructuredGrid) (vertUrl : Text) (t : Instant) :
    LayerType → RunStep → Res Layers
  | .cloudPrecip, step => do
    let clct ← Swiss.steps s t .clct true
    let totPrec ← Swiss.steps s t .totPrec false
    let ceiling ← Swiss.steps s t .ceiling false
    let l ← Swiss.readCloudPrecip w grid clct totPrec step
    let ww ← Swiss.readWeather w grid clct ceiling step
    .ok (.cloudPrecip l ww)
  | .wind10m, step => do
    let u10m ← Swiss.steps s t .u10m false
    let v10m ← Swiss.steps s t .v10m false
    let vmax10m ← Swiss.steps s t .vmax10m false
    let l ← Swiss.readWind w grid u10m v10m vmax10m step
    .ok (.wind l)
  | .temp2m, step => do
    let t2m ← Swiss.steps s t .t2m false
    let l ← Swiss.readTemp w grid t2m step
    .ok (.temp l)
  | .verticalCloud, step => do
    let hhl ← Swiss.readHhl w grid vertUrl
    let clc ← Swiss.steps s t .clc false
    let l ← Swiss.readVerticalCloud w grid hhl clc step
    .ok (.verticalCloud l)
  | .verticalWind, step => do
    let hhl ← Swiss.readHhl w grid vertUrl
    let u ← Swiss.steps s t .u false
    let v ← Swiss.steps s t .v false
    let l ← Swiss.readVerticalWind w grid hhl u v step
    .ok (.verticalWind l)
  | .weather, _ => .err

/-- The files of a variable of a MeteoSwiss run. -/
def SwissVariable (m : Libm) (w : World) (s : Service) (cal : Calendar) (filter : List Nat) (grid : UnstructuredGrid)
    (vertUrl : Text) (t : Instant) (v : LayerType) (p : Text) (c : Content) : Prop :=
  ∃ run steps, forecastRun cal t = .ok run ∧ swissSteps s t v = .ok steps ∧
    Expected m run steps filter (swissLayers w s grid vertUrl t v) p c

/-- The files that rendering a MeteoSwiss run is to produce. -/
def SwissExpected (m : Libm) (w : World) (s : Service) (cal : Calendar) (vars : List Text) (filter : List Nat)
    (grid : UnstructuredGrid) (vertUrl : Text) (t : Instant) (p : Text) (c : Content) : Prop :=
  ∃ v, ChosenVar vars v ∧ SwissVariable m w s cal filter grid vertUrl t v p c

theorem bind_ok' {α β : Type} {r : Res α} {f : α → Res β} {b : β} (h : (r >>= f) = .ok b) : ∃ a, r = .ok a ∧ f a = .ok b :=
  Res.bind_eq_ok.mp h

theorem writes_swiss_cloudPrecip (m : Libm) (w : World) (s : Service) (cal : Calendar) (dirs : Text → Bool)
    (filter : List Nat) (grid : UnstructuredGrid) (vertUrl : Text) (t : Instant) :
    Effect.Writes (Swiss.renderCloudPrecip m w s cal dirs filter grid t)
      fun x => SwissVariable m w s cal filter grid vertUrl t .cloudPrecip x.path x.content := by
  refine (Effect.Writes.need fun run _ => Effect.Writes.need fun clct _ => Effect.Writes.need fun totPrec _ =>
    Effect.Writes.need fun ceiling _ => writes_renderSteps m run dirs clct filter _).congr fun x => ?_
  constructor
  · rintro ⟨run, e1, clct, e2, totPrec, e3, ceiling, e4, h⟩
    refine ⟨run, clct, e1, e2, (expected_congr (fun st _ => ?_) _ _).mp h⟩
    simp only [swissLayers, e2, e3, e4, Res.bind_ok]
  · rintro ⟨run, clct, e1, e2, h⟩
    have h' := h
    obtain ⟨st, _, _, l, hr, _⟩ := h'
    obtain ⟨_, a1, hr⟩ := bind_ok' hr
    obtain ⟨totPrec, a2, hr⟩ := bind_ok' hr
    obtain ⟨ceiling, a3, hr⟩ := bind_ok' hr
    have e2 : Swiss.steps s t .clct true = .ok clct := e2
    refine ⟨run, e1, clct, e2, totPrec, a2, ceiling, a3, (expected_congr (fun st _ => ?_) _ _).mpr h⟩
    simp only [swissLayers, e2, a2, a3, Res.bind_ok]

theorem writes_swiss_wind (m : Libm) (w : World) (s : Service) (cal : Calendar) (dirs : Text → Bool)
    (filter : List Nat) (grid : UnstructuredGrid) (vertUrl : Text) (t : Instant) :
    Effect.Writes (Swiss.renderWind m w s cal dirs filter grid t)
      fun x => SwissVariable m w s cal filter grid vertUrl t .wind10m x.path x.content := by
  refine (Effect.Writes.need fun run _ => Effect.Writes.need fun u10m _ => Effect.Writes.need fun v10m _ =>
    Effect.Writes.need fun vmax10m _ => writes_renderSteps m run dirs u10m filter _).congr fun x => ?_
  constructor
  · rintro ⟨run, e1, u10m, e2, v10m, e3, vmax10m, e4, h⟩
    refine ⟨run, u10m, e1, e2, (expected_congr (fun st _ => ?_) _ _).mp h⟩
    simp only [swissLayers, e2, e3, e4, Res.bind_ok]
  · rintro ⟨run, u10m, e1, e2, h⟩
    have h' := h
    obtain ⟨st, _, _, l, hr, _⟩ := h'
    obtain ⟨_, a1, hr⟩ := bind_ok' hr
    obtain ⟨v10m, a2, hr⟩ := bind_ok' hr
    obtain ⟨vmax10m, a3, hr⟩ := bind_ok' hr
    have e2 : Swiss.steps s t .u10m false = .ok u10m := e2
    refine ⟨run, e1, u10m, e2, v10m, a2, vmax10m, a3, (expected_congr (fun st _ => ?_) _ _).mpr h⟩
    simp only [swissLayers, e2, a2, a3, Res.bind_ok]

theorem writes_swiss_temp (m : Libm) (w : World) (s : Service) (cal : Calendar) (dirs : Text → Bool)
    (filter : List Nat) (grid : UnstructuredGrid) (vertUrl : Text) (t : Instant) :
    Effect.Writes (Swiss.renderTemp m w s cal dirs filter grid t)
      fun x => SwissVariable m w s cal filter grid vertUrl t .temp2m x.path x.content := by
  refine (Effect.Writes.need fun run _ => Effect.Writes.need fun t2m _ =>
    writes_renderSteps m run dirs t2m filter _).congr fun x => ?_
  constructor
  · rintro ⟨run, e1, t2m, e2, h⟩
    refine ⟨run, t2m, e1, e2, (expected_congr (fun st _ => ?_) _ _).mp h⟩
    simp only [swissLayers, e2, Res.bind_ok]
  · rintro ⟨run, t2m, e1, e2, h⟩
    have e2 : Swiss.steps s t .t2m false = .ok t2m := e2
    refine ⟨run, e1, t2m, e2, (expected_congr (fun st _ => ?_) _ _).mpr h⟩
    simp only [swissLayers, e2, Res.bind_ok]

theorem writes_swiss_verticalCloud (m : Libm) (w : World) (s : Service) (cal : Calendar) (dirs : Text → Bool)
    (filter : List Nat) (grid : UnstructuredGrid) (vertUrl : Text) (t : Instant) {hhl : List (LatLonValueGrid UInt8)}
    (hh : Swiss.readHhl w grid vertUrl = .ok hhl) :
    Effect.Writes (Swiss.renderVerticalCloud m w s cal dirs filter grid t hhl)
      fun x => SwissVariable m w s cal filter grid vertUrl t .verticalCloud x.path x.content := by
  refine (Effect.Writes.need fun run _ => Effect.Writes.need fun clc _ =>
    writes_renderSteps m run dirs clc filter _).congr fun x => ?_
  constructor
  · rintro ⟨run, e1, clc, e2, h⟩
    refine ⟨run, clc, e1, e2, (expected_congr (fun st _ => ?_) _ _).mp h⟩
    simp only [swissLayers, hh, e2, Res.bind_ok]
  · rintro ⟨run, clc, e1, e2, h⟩
    have e2 : Swiss.steps s t .clc false = .ok clc := e2
    refine ⟨run, e1, clc, e2, (expected_congr (fun st _ => ?_) _ _).mpr h⟩
    simp only [swissLayers, hh, e2, Res.bind_ok]

theorem writes_swiss_verticalWind (m : Libm) (w : World) (s : Service) (cal : Calendar) (dirs : Text → Bool)
    (filter : List Nat) (grid : UnstructuredGrid) (vertUrl : Text) (t : Instant) {hhl : List (LatLonValueGrid UInt8)}
    (hh : Swiss.readHhl w grid vertUrl = .ok hhl) :
    Effect.Writes (Swiss.renderVerticalWind m w s cal dirs filter grid t hhl)
      fun x => SwissVariable m w s cal filter grid vertUrl t .verticalWind x.path x.content := by
  refine (Effect.Writes.need fun run _ => Effect.Writes.need fun u _ => Effect.Writes.need fun v _ =>
    writes_renderSteps m run dirs u filter _).congr fun x => ?_
  constructor
  · rintro ⟨run, e1, u, e2, v, e3, h⟩
    refine ⟨run, u, e1, e2, (expected_congr (fun st _ => ?_) _ _).mp h⟩
    simp only [swissLayers, hh, e2, e3, Res.bind_ok]
  · rintro ⟨run, u, e1, e2, h⟩
    have h' := h
    obtain ⟨st, _, _, l, hr, _⟩ := h'
    obtain ⟨_, _, hr⟩ := bind_ok' hr
    obtain ⟨_, a1, hr⟩ := bind_ok' hr
    obtain ⟨v, a2, hr⟩ := bind_ok' hr
    have e2 : Swiss.steps s t .u false = .ok u := e2
    refine ⟨run, e1, u, e2, v, a2, (expected_congr (fun st _ => ?_) _ _).mpr h⟩
    simp only [swissLayers, hh, e2, a2, Res.bind_ok]

theorem vertical_cond (vars : List Text) :
    (vars.isEmpty || vars.contains LayerType.verticalCloud.name || vars.contains LayerType.verticalWind.name) = true ↔
      ChosenVar vars .verticalCloud ∨ ChosenVar vars .verticalWind := by
  unfold ChosenVar
  simp only [Bool.or_eq_true, List.isEmpty_iff, List.contains_iff_mem]
  tauto

theorem writes_swiss (m : Libm) (w : World) (s : Service) (cal : Calendar) (dirs : Text → Bool) (vars : List Text)
    (filter : List Nat) (grid : UnstructuredGrid) (vertUrl : Text) (t : Instant) :
    Effect.Writes (Swiss.renderRun m w s cal dirs vars filter grid vertUrl t)
      fun x => SwissExpected m w s cal vars filter grid vertUrl t x.path x.content := by
  refine (((Effect.Writes.when fun _ => writes_swiss_cloudPrecip m w s cal dirs filter grid vertUrl t).seq_cons
    ((Effect.Writes.when fun _ => writes_swiss_wind m w s cal dirs filter grid vertUrl t).seq_cons
    ((Effect.Writes.when fun _ => writes_swiss_temp m w s cal dirs filter grid vertUrl t).seq_cons
    ((Effect.Writes.when fun _ => Effect.Writes.need fun hhl hh =>
      (Effect.Writes.when fun _ => writes_swiss_verticalCloud m w s cal dirs filter grid vertUrl t hh).seq_cons
      ((Effect.Writes.when fun _ => writes_swiss_verticalWind m w s cal dirs filter grid vertUrl t hh).seq_cons
        .seq_nil)).seq_cons .seq_nil))))).congr fun x => ?_
  simp only [variableChosen_iff, vertical_cond]
  have hhhl : ∀ v, v = .verticalCloud ∨ v = .verticalWind →
      SwissVariable m w s cal filter grid vertUrl t v x.path x.content →
      ∃ hhl, Swiss.readHhl w grid vertUrl = .ok hhl := by
    rintro v hv ⟨_, _, _, _, st, _, _, l, hr, _⟩
    rcases hv with rfl | rfl <;> exact (bind_ok' hr).imp fun _ h => h.1
  constructor
  · rintro (h | h | h | ⟨_, hhl, hh, h | h | h⟩ | h)
    · exact ⟨_, h⟩
    · exact ⟨_, h⟩
    · exact ⟨_, h⟩
    · exact ⟨_, h⟩
    · exact ⟨_, h⟩
    · exact h.elim
    · exact h.elim
  · rintro ⟨v, h⟩
    cases v with
    | cloudPrecip => exact .inl h
    | wind10m => exact .inr (.inl h)
    | temp2m => exact .inr (.inr (.inl h))
    | verticalCloud =>
      obtain ⟨hhl, hh⟩ := hhhl _ (.inl rfl) h.2
      exact .inr (.inr (.inr (.inl ⟨.inl h.1, hhl, hh, .inl h⟩)))
    | verticalWind =>
      obtain ⟨hhl, hh⟩ := hhhl _ (.inr rfl) h.2
      exact .inr (.inr (.inr (.inl ⟨.inr h.1, hhl, hh, .inr (.inl h)⟩)))
    | weather =>
      obtain ⟨_, _, _, _, e, _⟩ := h
      cases e

theorem variable_of_swiss {w : World} {s : Service} {grid : UnstructuredGrid} {vertUrl : Text} {t : Instant}
    {v : LayerType} {st : RunStep} {l : Layers} (h : swissLayers w s grid vertUrl t v st = .ok l) :
    variableOf l = v := by
  cases v with
  | cloudPrecip =>
    simp only [swissLayers, Res.bind_eq_ok, Res.ok.injEq] at h
    obtain ⟨_, _, _, _, _, _, _, _, _, _, rfl⟩ := h
    rfl
  | wind10m =>
    simp only [swissLayers, Res.bind_eq_ok, Res.ok.injEq] at h
    obtain ⟨_, _, _, _, _, _, _, _, rfl⟩ := h
    rfl
  | temp2m =>
    simp only [swissLayers, Res.bind_eq_ok, Res.ok.injEq] at h
    obtain ⟨_, _, _, _, rfl⟩ := h
    rfl
  | verticalCloud =>
    simp only [swissLayers, Res.bind_eq_ok, Res.ok.injEq] at h
    obtain ⟨_, _, _, _, _, _, rfl⟩ := h
    rfl
  | verticalWind =>
    simp only [swissLayers, Res.bind_eq_ok, Res.ok.injEq] at h
    obtain ⟨_, _, _, _, _, _, _, _, rfl⟩ := h
    rfl
  | weather => cases h

theorem swissSteps_numbered {s : Service} {t : Instant} {v : LayerType} {steps : List RunStep}
    (h : swissSteps s t v = .ok steps) : Numbered steps := by
  have key : ∀ x skip, Swiss.steps s t x skip = .ok steps → Numbered steps := by
    intro x skip h
    unfold Swiss.steps at h
    obtain ⟨_, _, h⟩ := bind_ok' h
    obtain ⟨files, _, h⟩ := bind_ok' h
    cases h
    exact C53_swiss_numbered files skip
  cases v with
  | weather => cases h
  | cloudPrecip => exact key _ _ h
  | wind10m => exact key _ _ h
  | temp2m => exact key _ _ h
  | verticalCloud => exact key _ _ h
  | verticalWind => exact key _ _ h

theorem runName_no_slash {t : Instant} {name : Text} (h : RefTime.runName t = .ok name) : '/' ∉ name := by
  unfold RefTime.runName at h
  split at h <;> cases h <;> decide +kernel

theorem forecastRun_no_slash {cal : Calendar} {t : Instant} {run : Run} (h : forecastRun cal t = .ok run) :
    '/' ∉ run.name := by
  unfold forecastRun at h
  obtain ⟨name, hn, h⟩ := bind_ok' h
  cases h
  exact runName_no_slash hn

/-- C87 for MeteoSwiss: whatever happens, every file that is written belongs to a variable and a step
that the filters select. -/
theorem C87_swiss_only (m : Libm) (w : World) (s : Service) (cal : Calendar) (dirs : Text → Bool) (vars : List Text)
    (filter : List Nat) (grid : UnstructuredGrid) (vertUrl : Text) (t : Instant) (tr : List Write) (o : Outcome)
    (h : Swiss.renderRun m w s cal dirs vars filter grid vertUrl t tr o) (x : Write) (hx : x ∈ tr) :
    ∃ (out : Output) (run : Run) (steps : List RunStep), ChosenVar vars out.variable ∧ forecastRun cal t = .ok run ∧
      swissSteps s t out.variable = .ok steps ∧ ∃ st ∈ steps, Chosen filter st ∧
      x.path = out.path run st.nr ∧ ∃ l, swissLayers w s grid vertUrl t out.variable st = .ok l ∧
        FileOf m run.model.zoomRange l out x.content := by
  obtain ⟨v, hv, run, steps, h1, h2, st, hs, hc, l, hr, out, hf, hp⟩ :=
    (writes_swiss m w s cal dirs vars filter grid vertUrl t).only tr o h x hx
  have e : out.variable = v := hf.variable.trans (variable_of_swiss hr)
  exact ⟨out, run, steps, e ▸ hv, h1, e ▸ h2, st, hs, hc, hp, l, e ▸ hr, hf⟩

theorem swissExpected_functional {m : Libm} {w : World} {s : Service} {cal : Calendar} {vars : List Text}
    {filter : List Nat} {grid : UnstructuredGrid} {vertUrl : Text} {t : Instant} {p : Text} {c c' : Content}
    (h : SwissExpected m w s cal vars filter grid vertUrl t p c)
    (h' : SwissExpected m w s cal vars filter grid vertUrl t p c') : c = c' := by
  obtain ⟨v, hv, run, steps, e1, e2, st, hs1, hc, l, hr, out, hf, hp⟩ := h
  obtain ⟨v', hv', run', steps', e1', e2', st', hs1', hc', l', hr', out', hf', hp'⟩ := h'
  rw [e1] at e1'
  cases e1'
  obtain ⟨en, e⟩ := C54_same_run run (forecastRun_no_slash e1) (hp.symm.trans hp')
  subst e
  have ev : v = v' := by
    rw [← variable_of_swiss hr, ← variable_of_swiss hr', ← hf.variable, ← hf'.variable]
  subst ev
  rw [e2] at e2'
  cases e2'
  obtain rfl := swissSteps_numbered e2 _ hs1 _ hs1' en
  rw [hr] at hr'
  cases hr'
  exact hf.functional hf'

/-- C87 for MeteoSwiss: after a run that succeeds, the files of all variables and steps that the filters
select are there with the right contents, and all other files are as before. -/
theorem C87_swiss_files (m : Libm) (w : World) (s : Service) (cal : Calendar) (dirs : Text → Bool) (vars : List Text)
    (filter : List Nat) (grid : UnstructuredGrid) (vertUrl : Text) (t : Instant) (tr : List Write)
    (h : Swiss.renderRun m w s cal dirs vars filter grid vertUrl t tr .done) (before : Tree) (p : Text) :
    (∀ c, SwissExpected m w s cal vars filter grid vertUrl t p c → before.write tr p = some c) ∧
    ((∀ c, ¬SwissExpected m w s cal vars filter grid vertUrl t p c) → before.write tr p = before p) := by
  have hw := writes_swiss m w s cal dirs vars filter grid vertUrl t
  constructor
  · intro c hc
    refine (before.write_eq tr p).1 c ⟨⟨p, c⟩, hw.all tr h _ hc, rfl⟩ fun x hx hp => ?_
    have := hw.only tr _ h x hx
    rw [hp] at this
    exact swissExpected_functional this hc
  · intro hc
    refine (before.write_eq tr p).2 fun x hx hp => hc x.content ?_
    have := hw.only tr _ h x hx
    rwa [hp] at this

/-! ## C90: nothing is missing without notice, MeteoSwiss -/

/-- Every selected step of a variable was read and drawn. -/
def SwissComplete (m : Libm) (w : World) (s : Service) (cal : Calendar) (filter : List Nat) (grid : UnstructuredGrid)
    (vertUrl : Text) (t : Instant) (v : LayerType) : Prop :=
  ∃ run steps, forecastRun cal t = .ok run ∧ swissSteps s t v = .ok steps ∧ ∀ st ∈ steps, Chosen filter st →
    ∃ l, swissLayers w s grid vertUrl t v st = .ok l ∧ CanDraw m run.model.zoomRange l

theorem done_need {α : Type} {r : Res α} {f : α → Effect} {tr : List Write} (h : Effect.need r f tr .done) :
    ∃ a, r = .ok a ∧ f a tr .done := by
  unfold Effect.need at h
  cases r with
  | ok a => exact ⟨a, rfl, h⟩
  | err => cases h.2
  | panic => cases h.2

theorem done_when {c : Bool} {e : Effect} {tr : List Write} (h : Effect.when c e tr .done) (hc : c = true) :
    e tr .done := by
  unfold Effect.when at h
  rwa [if_pos hc] at h

theorem done_seq {es : List Effect} {tr : List Write} (h : MapTileRenderer.Seq es tr .done) :
    ∀ e ∈ es, ∃ t, e t .done := by
  induction es generalizing tr with
  | nil => intro e he; cases he
  | cons e es ih =>
    cases h with
    | cons h1 h2 =>
      intro e' he
      rcases List.mem_cons.mp he with rfl | he
      · exact ⟨_, h1⟩
      · exact ih h2 e' he
    | stop _ ho => exact absurd rfl ho

/-- C90 for MeteoSwiss: if rendering a run succeeds, the files of every selected variable were found and every
selected step was read and drawn. -/
theorem C90_swiss (m : Libm) (w : World) (s : Service) (cal : Calendar) (dirs : Text → Bool) (vars : List Text)
    (filter : List Nat) (grid : UnstructuredGrid) (vertUrl : Text) (t : Instant) (tr : List Write)
    (h : Swiss.renderRun m w s cal dirs vars filter grid vertUrl t tr .done) (v : LayerType) (hv : ChosenVar vars v)
    (hw : v ≠ .weather) : SwissComplete m w s cal filter grid vertUrl t v := by
  have h := done_seq h
  have hvc := (variableChosen_iff vars v).mpr hv
  cases v with
  | weather => exact absurd rfl hw
  | cloudPrecip =>
    obtain ⟨_, h⟩ := h _ List.mem_cons_self
    obtain ⟨run, e1, h⟩ := done_need (done_when h hvc)
    obtain ⟨clct, e2, h⟩ := done_need h
    obtain ⟨totPrec, e3, h⟩ := done_need h
    obtain ⟨ceiling, e4, h⟩ := done_need h
    refine ⟨run, clct, e1, e2, fun st hs hc => ?_⟩
    simp only [swissLayers, e2, e3, e4, Res.bind_ok]
    exact (succeeds_renderSteps _ _ _ _ _ _).only _ h st hs hc
  | wind10m =>
    obtain ⟨_, h⟩ := h _ (List.mem_cons_of_mem _ List.mem_cons_self)
    obtain ⟨run, e1, h⟩ := done_need (done_when h hvc)
    obtain ⟨u, e2, h⟩ := done_need h
    obtain ⟨v, e3, h⟩ := done_need h
    obtain ⟨g, e4, h⟩ := done_need h
    refine ⟨run, u, e1, e2, fun st hs hc => ?_⟩
    simp only [swissLayers, e2, e3, e4, Res.bind_ok]
    exact (succeeds_renderSteps _ _ _ _ _ _).only _ h st hs hc
  | temp2m =>
    obtain ⟨_, h⟩ := h _ (List.mem_cons_of_mem _ (List.mem_cons_of_mem _ List.mem_cons_self))
    obtain ⟨run, e1, h⟩ := done_need (done_when h hvc)
    obtain ⟨t2m, e2, h⟩ := done_need h
    refine ⟨run, t2m, e1, e2, fun st hs hc => ?_⟩
    simp only [swissLayers, e2, Res.bind_ok]
    exact (succeeds_renderSteps _ _ _ _ _ _).only _ h st hs hc
  | verticalCloud =>
    obtain ⟨_, h⟩ := h _ (List.mem_cons_of_mem _ (List.mem_cons_of_mem _ (List.mem_cons_of_mem _ List.mem_cons_self)))
    obtain ⟨hhl, e0, h⟩ := done_need (done_when h ((vertical_cond vars).mpr (.inl hv)))
    obtain ⟨_, h⟩ := done_seq h _ List.mem_cons_self
    obtain ⟨run, e1, h⟩ := done_need (done_when h hvc)
    obtain ⟨clc, e2, h⟩ := done_need h
    refine ⟨run, clc, e1, e2, fun st hs hc => ?_⟩
    simp only [swissLayers, e0, e2, Res.bind_ok]
    exact (succeeds_renderSteps _ _ _ _ _ _).only _ h st hs hc
  | verticalWind =>
    obtain ⟨_, h⟩ := h _ (List.mem_cons_of_mem _ (List.mem_cons_of_mem _ (List.mem_cons_of_mem _ List.mem_cons_self)))
    obtain ⟨hhl, e0, h⟩ := done_need (done_when h ((vertical_cond vars).mpr (.inr hv)))
    obtain ⟨_, h⟩ := done_seq h _ (List.mem_cons_of_mem _ List.mem_cons_self)
    obtain ⟨run, e1, h⟩ := done_need (done_when h hvc)
    obtain ⟨u, e2, h⟩ := done_need h
    obtain ⟨v, e3, h⟩ := done_need h
    refine ⟨run, u, e1, e2, fun st hs hc => ?_⟩
    simp only [swissLayers, e0, e2, e3, Res.bind_ok]
    exact (succeeds_renderSteps _ _ _ _ _ _).only _ h st hs hc

/-! ## The command line -/

/-- The files that the program is to write. -/
def MainExpected (e : Environment) (model : Text) (vars : List Text) (filter : List Nat) (p : Text) (c : Content) :
    Prop :=
  (∃ dwd, (model = "icon-d2".toList ∧ dwd = FcModel.iconD2 ∨ model = "icon-eu".toList ∧ dwd = FcModel.iconEu) ∧
    ∃ run, Dwd.findLatestRun dwd e.today e.now e.available = .ok run ∧
      DwdExpected e.libm e.world vars filter run p c) ∨
  (model = "icon-ch1".toList ∧ ∃ assets hor vert grid refTimes t, e.service.assets = .ok assets ∧
    findAsset assets "horizontal_constants_icon-ch1-eps.grib2".toList = some hor ∧
    findAsset assets "vertical_constants_icon-ch1-eps.grib2".toList = some vert ∧
    readHorConst e.world hor.href = .ok grid ∧ e.service.refTimes = .ok refTimes ∧
    SwissSearch.findLatest e.calendar.parse refTimes = .ok t ∧
    SwissExpected e.libm e.world e.service e.calendar vars filter grid vert.href t p c)

theorem unwrap_ok {α : Type} {o : Option α} {a : α} : Res.unwrap o = .ok a ↔ o = some a := by
  cases o with
  | none => constructor <;> intro h <;> cases h
  | some b => constructor <;> intro h <;> cases h <;> rfl

/-- C87: the program writes nothing but files of selected variables and steps of the run found, and all of them if it
succeeds. -/
theorem C87_main (e : Environment) (model : Text) (vars : List Text) (filter : List Nat) (tr : List Write) :
    (∀ o, mainEffect e model vars filter tr o → ∀ x ∈ tr, MainExpected e model vars filter x.path x.content) ∧
    (mainEffect e model vars filter tr .done → ∀ x : Write, MainExpected e model vars filter x.path x.content → x ∈ tr) := by
  have hne : "icon-ch1".toList ≠ "icon-d2".toList ∧ "icon-ch1".toList ≠ "icon-eu".toList ∧
      "icon-d2".toList ≠ "icon-eu".toList := by decide +kernel
  have key : Effect.Writes (mainEffect e model vars filter)
      fun x => MainExpected e model vars filter x.path x.content := by
    unfold mainEffect
    split
    · rename_i hm
      refine (Effect.Writes.need fun assets _ => Effect.Writes.need fun hor _ => Effect.Writes.need fun grid _ =>
        Effect.Writes.need fun vert _ => Effect.Writes.need fun refTimes _ => Effect.Writes.need fun t _ =>
          writes_swiss e.libm e.world e.service e.calendar e.dirs vars filter grid vert.href t).congr fun x => ?_
      constructor
      · rintro ⟨assets, a1, hor, a2, grid, a3, vert, a4, refTimes, a5, t, a6, h⟩
        exact .inr ⟨hm, assets, hor, vert, grid, refTimes, t, a1, unwrap_ok.mp a2, unwrap_ok.mp a4, a3, a5, a6, h⟩
      · rintro (⟨_, ⟨h, _⟩ | ⟨h, _⟩, _⟩ | ⟨_, assets, hor, vert, grid, refTimes, t, a1, a2, a4, a3, a5, a6, h⟩)
        · exact absurd (hm.symm.trans h) hne.1
        · exact absurd (hm.symm.trans h) hne.2.1
        · exact ⟨assets, a1, hor, unwrap_ok.mpr a2, grid, a3, vert, unwrap_ok.mpr a4, refTimes, a5, t, a6, h⟩
    · rename_i h0
      split
      · rename_i hm
        refine (Effect.Writes.need fun run _ => writes_dwd e.libm e.world e.dirs vars filter run).congr fun x => ?_
        constructor
        · rintro h; exact .inl ⟨_, .inl ⟨hm, rfl⟩, h⟩
        · rintro (⟨_, ⟨h, rfl⟩ | ⟨h, _⟩, hr⟩ | ⟨h, _⟩)
          · exact hr
          · exact absurd (hm.symm.trans h) hne.2.2
          · exact absurd h h0
      · rename_i h1
        split
        · rename_i hm
          refine (Effect.Writes.need fun run _ => writes_dwd e.libm e.world e.dirs vars filter run).congr fun x => ?_
          constructor
          · rintro h; exact .inl ⟨_, .inr ⟨hm, rfl⟩, h⟩
          · rintro (⟨_, ⟨h, _⟩ | ⟨_, rfl⟩, hr⟩ | ⟨h, _⟩)
            · exact absurd h h1
            · exact hr
            · exact absurd h h0
        · rename_i h2
          refine ⟨fun tr o h x hx => ?_, fun tr h x hx => ?_⟩
          · rw [h.1] at hx; cases hx
          · rcases hx with ⟨_, ⟨h, _⟩ | ⟨h, _⟩, _⟩ | ⟨h, _⟩
            · exact absurd h h1
            · exact absurd h h2
            · exact absurd h h0
  exact ⟨fun o h => key.only tr o h, fun h => key.all tr h⟩

/-! ## C88: names in the variable filter -/

theorem not_chosen {vars : List Text} (hne : vars ≠ []) {v : LayerType} (h : v.name ∉ vars) :
    variableChosen vars v = false := by
  rw [← Bool.not_eq_true, variableChosen_iff]
  rintro (h' | h')
  · exact hne h'
  · exact h h'

theorem when_false (e : Effect) : Effect.when false e = fun tr o => tr = [] ∧ o = .done := rfl

theorem seq_nothing (k : Nat) (tr : List Write) (o : Outcome) :
    MapTileRenderer.Seq (List.replicate k (fun (tr : List Write) o => tr = [] ∧ o = Outcome.done)) tr o ↔
      tr = [] ∧ o = .done := by
  induction k generalizing tr with
  | zero =>
    constructor
    · intro h; cases h; exact ⟨rfl, rfl⟩
    · rintro ⟨rfl, rfl⟩; exact .nil
  | succ k ih =>
    rw [List.replicate_succ]
    constructor
    · intro h
      cases h with
      | cons h1 h2 =>
        obtain ⟨rfl, _⟩ := h1
        exact (ih _).mp h2
      | stop h1 ho => exact absurd h1.2 ho
    · rintro ⟨rfl, rfl⟩
      exact .cons (tr := []) ⟨rfl, rfl⟩ ((ih _).mpr ⟨rfl, rfl⟩)

/-- The names that select something. -/
def knownNames : List Text :=
  ["cloud_precip".toList, "wind_10m".toList, "temp_2m".toList, "vertical_cloud".toList, "vertical_wind".toList]

/-- If the variable filter contains other names only, rendering a DWD run does nothing and succeeds. -/
theorem C88_ignored_dwd (m : Libm) (w : World) (dirs : Text → Bool) (vars : List Text) (filter : List Nat) (run : Run)
    (hne : vars ≠ []) (h : ∀ n ∈ knownNames, n ∉ vars) (tr : List Write) (o : Outcome) :
    Dwd.renderRun m w dirs vars filter run tr o ↔ tr = [] ∧ o = .done := by
  have hk : ∀ v : LayerType, v.name ∈ knownNames → variableChosen vars v = false :=
    fun v hv => not_chosen hne (h _ hv)
  have hv : (vars.isEmpty || vars.contains LayerType.verticalCloud.name || vars.contains LayerType.verticalWind.name) = false := by
    rw [← Bool.not_eq_true, vertical_cond]
    rintro (h' | h') <;> rw [← variableChosen_iff, hk _ (by decide +kernel)] at h' <;> cases h'
  unfold Dwd.renderRun
  rw [hk .cloudPrecip (by decide +kernel), hk .wind10m (by decide +kernel), hk .temp2m (by decide +kernel), hv]
  exact seq_nothing 4 tr o

/-- The same for MeteoSwiss. -/
theorem C88_ignored_swiss (m : Libm) (w : World) (s : Service) (cal : Calendar) (dirs : Text → Bool) (vars : List Text)
    (filter : List Nat) (grid : UnstructuredGrid) (vertUrl : Text) (t : Instant) (hne : vars ≠ [])
    (h : ∀ n ∈ knownNames, n ∉ vars) (tr : List Write) (o : Outcome) :
    Swiss.renderRun m w s cal dirs vars filter grid vertUrl t tr o ↔ tr = [] ∧ o = .done := by
  have hk : ∀ v : LayerType, v.name ∈ knownNames → variableChosen vars v = false :=
    fun v hv => not_chosen hne (h _ hv)
  have hv : (vars.isEmpty || vars.contains LayerType.verticalCloud.name || vars.contains LayerType.verticalWind.name) = false := by
    rw [← Bool.not_eq_true, vertical_cond]
    rintro (h' | h') <;> rw [← variableChosen_iff, hk _ (by decide +kernel)] at h' <;> cases h'
  unfold Swiss.renderRun
  rw [hk .cloudPrecip (by decide +kernel), hk .wind10m (by decide +kernel), hk .temp2m (by decide +kernel), hv]
  exact seq_nothing 4 tr o

/-- C88 (a run that succeeds has rendered every variable named in the filter, other names are reported) is false:
with the layer name `weather` as filter the program does nothing and succeeds, in any environment. -/
theorem C88_counterexample (e : Environment) (filter : List Nat) (tr : List Write) (o : Outcome) :
    LayerType.weather.name = "weather".toList ∧
    (mainEffect e "icon-d2".toList ["weather".toList] filter tr o ↔ tr = [] ∧ o = .done) := by
  refine ⟨rfl, ?_⟩
  have hne : "icon-ch1".toList ≠ "icon-d2".toList := by decide +kernel
  unfold mainEffect
  rw [if_neg hne.symm, if_pos rfl]
  unfold Dwd.renderLatest
  have : ∃ run, Dwd.findLatestRun .iconD2 e.today e.now e.available = .ok run := by
    rcases Dwd.C51_cases (.inl rfl) e.available e.today e.now with ⟨_, _, h⟩ | ⟨_, h⟩ <;> exact ⟨_, h⟩
  obtain ⟨run, hr⟩ := this
  rw [hr]
  show Dwd.renderRun _ _ _ _ _ _ tr o ↔ _
  exact C88_ignored_dwd _ _ _ _ _ _ (by simp) (by decide +kernel) tr o

/-! ## C91: exit status -/

/-- C91 (the exit status is 0 only if everything selected was rendered) is false: there is an environment, for example one without
network, in which selected files are not written and the exit status is 0 always. -/
theorem C91_counterexample (m : Libm) (cal : Calendar) : ∃ e : Environment, e.libm = m ∧ e.calendar = cal ∧
    (∃ tr o, mainEffect e "icon-d2".toList ["temp_2m".toList] [] tr o) ∧
    ∀ tr o, mainEffect e "icon-d2".toList ["temp_2m".toList] [] tr o → tr = [] ∧ o = .failed ∧ exitStatus o = 0 := by
  let e : Environment := ⟨m, ⟨fun _ => none, fun _ => none, id⟩, ⟨.err, .err, fun _ _ => .err⟩, cal, fun _ => false,
    ⟨2025, 8, 5⟩, ⟨2025, 8, 5⟩, fun _ => false⟩
  have hne : "icon-ch1".toList ≠ "icon-d2".toList := by decide +kernel
  have hrun : Dwd.findLatestRun .iconD2 e.today e.now e.available = .ok ⟨.iconD2, ⟨2025, 8, 4⟩, "21".toList⟩ := by
    show Dwd.findLatestRun .iconD2 ⟨2025, 8, 5⟩ ⟨2025, 8, 5⟩ (fun _ => false) = _
    decide +kernel
  have hread : ∀ s ∈ FcModel.iconD2.forecastSteps,
      Dwd.tempLayers e.world ⟨.iconD2, ⟨2025, 8, 4⟩, "21".toList⟩ s = .err := by
    intro s _
    obtain ⟨url, hu, h1, _⟩ := Dwd.C52_download (run := ⟨.iconD2, ⟨2025, 8, 4⟩, "21".toList⟩) (.inl rfl) (.single .t2m s.nr)
    have hst : e.world.stream url = .err := by
      unfold World.stream
      rw [if_pos h1]
      rfl
    unfold Dwd.tempLayers Dwd.readTemp Dwd.readGrid World.readRectangular World.readSingle
    rw [hu]
    show Res.bind (Res.bind (Res.bind (Res.bind (e.world.stream url) _) _) _) _ = _
    rw [hst]
    rfl
  have heff : mainEffect e "icon-d2".toList ["temp_2m".toList] [] =
      MapTileRenderer.Seq [fun tr o => tr = [] ∧ o = .done, fun tr o => tr = [] ∧ o = .done,
        renderSteps m ⟨.iconD2, ⟨2025, 8, 4⟩, "21".toList⟩ e.dirs FcModel.iconD2.forecastSteps []
          (Dwd.tempLayers e.world ⟨.iconD2, ⟨2025, 8, 4⟩, "21".toList⟩), fun tr o => tr = [] ∧ o = .done] := by
    unfold mainEffect
    rw [if_neg hne.symm, if_pos rfl]
    unfold Dwd.renderLatest
    rw [hrun]
    show Dwd.renderRun _ _ _ _ _ _ = _
    unfold Dwd.renderRun
    have k1 : variableChosen ["temp_2m".toList] .cloudPrecip = false := by decide +kernel
    have k2 : variableChosen ["temp_2m".toList] .wind10m = false := by decide +kernel
    have k3 : variableChosen ["temp_2m".toList] .temp2m = true := by decide +kernel
    have k4 : (["temp_2m".toList].isEmpty || ["temp_2m".toList].contains LayerType.verticalCloud.name ||
      ["temp_2m".toList].contains LayerType.verticalWind.name) = false := by decide +kernel
    rw [k1, k2, k3, k4]
    rfl
  refine ⟨e, rfl, rfl, ?_, ?_⟩
  · rw [heff]
    obtain ⟨tr, h⟩ := (C53_fails_iff m ⟨.iconD2, ⟨2025, 8, 4⟩, "21".toList⟩ e.dirs FcModel.iconD2.forecastSteps []
      (Dwd.tempLayers e.world ⟨.iconD2, ⟨2025, 8, 4⟩, "21".toList⟩)).mpr
        ⟨⟨2, []⟩, by decide +kernel, .inl rfl, hread _ (by decide +kernel)⟩
    exact ⟨_, _, .cons (tr := []) ⟨rfl, rfl⟩ (.cons (tr := []) ⟨rfl, rfl⟩ (.stop h (by simp)))⟩
  · intro tr o h
    rw [heff] at h
    have hs : ∀ tr o, renderSteps m ⟨.iconD2, ⟨2025, 8, 4⟩, "21".toList⟩ e.dirs FcModel.iconD2.forecastSteps []
        (Dwd.tempLayers e.world ⟨.iconD2, ⟨2025, 8, 4⟩, "21".toList⟩) tr o → tr = [] ∧ o = .failed := by
      intro tr o h
      constructor
      · refine List.eq_nil_iff_forall_not_mem.mpr fun x hx => ?_
        obtain ⟨s, hs, _, l, hr, _⟩ := C53_only_chosen _ _ _ _ _ _ _ _ h x hx
        rw [hread s hs] at hr
        cases hr
      · cases o with
        | failed => rfl
        | done =>
          obtain ⟨l, hr, _⟩ := (succeeds_renderSteps _ _ _ _ _ _).only _ h ⟨2, []⟩ (by decide +kernel) (.inl rfl)
          rw [hread _ (by decide +kernel)] at hr
          cases hr
        | panicked =>
          obtain ⟨s, hs, t, h⟩ := parTry_panicked h
          rcases step_cases h with ⟨_, _, h⟩ | ⟨_, _, _, h⟩ | ⟨_, hr, _⟩ | ⟨_, l, hr, _⟩
          · cases h
          · cases h
          · rw [hread s hs] at hr; cases hr
          · rw [hread s hs] at hr; cases hr
    cases h with
    | stop h1 ho => exact absurd h1.2 ho
    | cons h1 h =>
      obtain ⟨rfl, _⟩ := h1
      cases h with
      | stop h1 ho => exact absurd h1.2 ho
      | cons h1 h =>
        obtain ⟨rfl, _⟩ := h1
        cases h with
        | stop h1 ho =>
          obtain ⟨rfl, rfl⟩ := hs _ _ h1
          exact ⟨rfl, rfl, rfl⟩
        | cons h1 h => cases (hs _ _ h1).2

end Verif.Props
