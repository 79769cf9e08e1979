import Verif.Lemmas.Render
import Verif.Props.Forecast
import Verif.Props.Metobin

/-!
# C53, C85: rendering the steps of a forecast
-/

namespace Verif.Props

open Verif MapTileRenderer

/-! ## Which files belong to a step -/

/-- The files that belong to the layers read for a step: a tile for every needed tile coordinate of the chart,
with the value of the layer at each pixel translated to a colour, and the meteobin files of the layers.  The
vertical layers have no chart. -/
inductive FileOf (m : Libm) (zooms : Nat × Nat) : Layers → Output → Content → Prop
  | cloudPrecipTile {l w t d} (hn : Needed m l.cloud.grid.extent zooms t)
      (hd : createSingleTile m (cloudPrecipChart l).color t id = .ok d) :
      FileOf m zooms (.cloudPrecip l w) (.cloudPrecipTile t) (.picture d)
  | precip {l w b} (hb : Metobin.precipBin l = .ok b) : FileOf m zooms (.cloudPrecip l w) (.bin .precip) (.bytes b)
  | weather {l w b} (hb : Metobin.weatherBin w = .ok b) : FileOf m zooms (.cloudPrecip l w) (.bin .weather) (.bytes b)
  | windTile {l t d} (hn : Needed m l.zonal.grid.extent zooms t)
      (hd : createSingleTile m (windChart l).color t id = .ok d) : FileOf m zooms (.wind l) (.windTile t) (.picture d)
  | wind {l b} (hb : Metobin.windBin l = .ok b) : FileOf m zooms (.wind l) (.bin .wind10m) (.bytes b)
  | tempTile {l t d} (hn : Needed m l.temp.grid.extent zooms t)
      (hd : createSingleTile m (tempChart l).color t id = .ok d) : FileOf m zooms (.temp l) (.tempTile t) (.picture d)
  | temp {l b} (hb : Metobin.tempBin l = .ok b) : FileOf m zooms (.temp l) (.bin .temp2m) (.bytes b)
  | verticalCloud {l b} (hb : Metobin.verticalCloudBin l = .ok b) :
      FileOf m zooms (.verticalCloud l) (.bin .verticalClouds) (.bytes b)
  | verticalWind {l b} (hb : Metobin.verticalWindBin l = .ok b) :
      FileOf m zooms (.verticalWind l) (.bin .verticalWind) (.bytes b)

theorem FileOf.functional {m : Libm} {zooms : Nat × Nat} {l : Layers} {o : Output} {c c' : Content}
    (h : FileOf m zooms l o c) (h' : FileOf m zooms l o c') : c = c' := by
  cases h <;> cases h' <;> simp_all

/-- The layers can be turned into all their files: every tile that is needed and all meteobin files. -/
def CanDraw (m : Libm) (zooms : Nat × Nat) : Layers → Prop
  | .cloudPrecip l w =>
    (∀ t, Needed m l.cloud.grid.extent zooms t → ∃ d, createSingleTile m (cloudPrecipChart l).color t id = .ok d) ∧
    (∃ b, Metobin.precipBin l = .ok b) ∧ ∃ b, Metobin.weatherBin w = .ok b
  | .wind l =>
    (∀ t, Needed m l.zonal.grid.extent zooms t → ∃ d, createSingleTile m (windChart l).color t id = .ok d) ∧
    ∃ b, Metobin.windBin l = .ok b
  | .temp l =>
    (∀ t, Needed m l.temp.grid.extent zooms t → ∃ d, createSingleTile m (tempChart l).color t id = .ok d) ∧
    ∃ b, Metobin.tempBin l = .ok b
  | .verticalCloud l => ∃ b, Metobin.verticalCloudBin l = .ok b
  | .verticalWind l => ∃ b, Metobin.verticalWindBin l = .ok b

/-- The step filter: no filter, or the step is in it. -/
def Chosen (filter : List Nat) (s : RunStep) : Prop := filter = [] ∨ s.nr ∈ filter

theorem selected_iff (filter : List Nat) (s : RunStep) : selected filter s = true ↔ Chosen filter s := by
  unfold selected Chosen
  simp [List.isEmpty_iff]

/-- The files that rendering the steps is to produce. -/
def Expected (m : Libm) (run : Run) (steps : List RunStep) (filter : List Nat) (read : RunStep → Res Layers)
    (path : Text) (c : Content) : Prop :=
  ∃ s ∈ steps, Chosen filter s ∧ ∃ l, read s = .ok l ∧ ∃ o, FileOf m run.model.zoomRange l o c ∧ path = o.path run s.nr

/-- Steps with the same number are the same. -/
def Numbered (steps : List RunStep) : Prop := ∀ s ∈ steps, ∀ s' ∈ steps, s.nr = s'.nr → s = s'

/-! ## A step -/

theorem chart_any {m : Libm} {run : Run} {step : Nat} {c : Chart} {tr : List Write} {o : Outcome}
    (h : runChart m run step (some c) tr o) : o ≠ .failed ∧
    (∀ w ∈ tr, ∃ t d, Needed m c.extent run.model.zoomRange t ∧ createSingleTile m c.color t id = .ok d ∧
      w = ⟨tilePath (outputPath run step c.layer) t, .picture d⟩) ∧
    (o = .done → ∀ t, Needed m c.extent run.model.zoomRange t → ∃ d, createSingleTile m c.color t id = .ok d ∧
      (⟨tilePath (outputPath run step c.layer) t, .picture d⟩ : Write) ∈ tr) := by
  obtain ⟨saved, rfl, h⟩ := h
  have hz := (zoomRange_le run.model).2
  obtain ⟨_, hn, hpic⟩ := C32_no_wrong_tile m c.extent run.model.zoomRange c.color id saved o h
  refine ⟨runAllTiles_not_failed m c.extent hz c.color id h, ?_, ?_⟩
  · intro w hw
    obtain ⟨s, hs, rfl⟩ := List.mem_map.mp hw
    exact ⟨s.tile, s.picture, hn _ (List.mem_map.mpr ⟨s, hs, rfl⟩), hpic s hs, rfl⟩
  · rintro rfl t ht
    obtain ⟨s, hs, rfl⟩ := List.mem_map.mp
      (((C32_exactly_once m c.extent run.model.zoomRange c.color id saved h).2.1 t).mpr ht)
    exact ⟨s.picture, hpic s hs, List.mem_map.mpr ⟨s, hs, rfl⟩⟩

/-- Running the work of a step, whatever its outcome: only files of the step are written; there is no error; if there
is no panic either, everything could be made and all files are written. -/
theorem job_any {m : Libm} {run : Run} {dirs : Text → Bool} {step : Nat} {l : Layers} {tr : List Write} {o : Outcome}
    (h : RunJob m run dirs step l.job tr o) : o ≠ .failed ∧
    (∀ w ∈ tr, ∃ out, FileOf m run.model.zoomRange l out w.content ∧ w.path = out.path run step) ∧
    (o = .done → CanDraw m run.model.zoomRange l ∧
      ∀ out c, FileOf m run.model.zoomRange l out c → (⟨out.path run step, c⟩ : Write) ∈ tr) := by
  cases h with
  | panicked h =>
    refine ⟨by simp, ?_, by simp⟩
    intro w hw
    cases l with
    | cloudPrecip l w' =>
      obtain ⟨t, d, hn, hd, rfl⟩ := (chart_any h).2.1 w hw
      exact ⟨.cloudPrecipTile t, .cloudPrecipTile hn hd, rfl⟩
    | wind l =>
      obtain ⟨t, d, hn, hd, rfl⟩ := (chart_any h).2.1 w hw
      exact ⟨.windTile t, .windTile hn hd, rfl⟩
    | temp l =>
      obtain ⟨t, d, hn, hd, rfl⟩ := (chart_any h).2.1 w hw
      exact ⟨.tempTile t, .tempTile hn hd, rfl⟩
    | verticalCloud l => obtain ⟨rfl, h⟩ := h; cases h
    | verticalWind l => obtain ⟨rfl, h⟩ := h; cases h
  | bins h ho =>
    rename_i tr o
    obtain ⟨h1, h2, h3, h4⟩ := writeBins_mem run step dirs l.job.bins tr
    refine ⟨h3, ?_, ?_⟩
    · intro w hw
      rcases h1 w hw with hw' | ⟨b, hb, data, hd, rfl⟩
      · cases l with
        | cloudPrecip l w' =>
          obtain ⟨t, d, hn, hd, rfl⟩ := (chart_any h).2.1 w hw'
          exact ⟨.cloudPrecipTile t, .cloudPrecipTile hn hd, rfl⟩
        | wind l =>
          obtain ⟨t, d, hn, hd, rfl⟩ := (chart_any h).2.1 w hw'
          exact ⟨.windTile t, .windTile hn hd, rfl⟩
        | temp l =>
          obtain ⟨t, d, hn, hd, rfl⟩ := (chart_any h).2.1 w hw'
          exact ⟨.tempTile t, .tempTile hn hd, rfl⟩
        | verticalCloud l => rw [h.1] at hw'; cases hw'
        | verticalWind l => rw [h.1] at hw'; cases hw'
      · cases l with
        | cloudPrecip l w' =>
          rcases List.mem_cons.mp hb with rfl | hb
          · exact ⟨.bin .precip, .precip hd, rfl⟩
          · rcases List.mem_cons.mp hb with rfl | hb
            · exact ⟨.bin .weather, .weather hd, rfl⟩
            · cases hb
        | wind l =>
          obtain rfl := List.mem_singleton.mp hb
          exact ⟨.bin .wind10m, .wind hd, rfl⟩
        | temp l =>
          obtain rfl := List.mem_singleton.mp hb
          exact ⟨.bin .temp2m, .temp hd, rfl⟩
        | verticalCloud l =>
          obtain rfl := List.mem_singleton.mp hb
          exact ⟨.bin .verticalClouds, .verticalCloud hd, rfl⟩
        | verticalWind l =>
          obtain rfl := List.mem_singleton.mp hb
          exact ⟨.bin .verticalWind, .verticalWind hd, rfl⟩
    · intro hdone
      have hb := h4 hdone
      have hbin : ∀ b ∈ l.job.bins, ∀ data, b.data = .ok data →
          (⟨binPath run step b.type, .bytes data⟩ : Write) ∈ (writeBins run step dirs tr l.job.bins).1 := by
        intro b hbm data hd
        obtain ⟨data', hd', hm⟩ := hb b hbm
        rw [hd] at hd'
        cases hd'
        exact hm
      cases l with
      | cloudPrecip l w' =>
        have hc := chart_any h
        have hdn : o = .done := by cases o <;> simp_all
        refine ⟨⟨fun t ht => (hc.2.2 hdn t ht).imp fun _ h => h.1, (hb _ List.mem_cons_self).imp fun _ h => h.1,
          (hb _ (List.mem_cons_of_mem _ List.mem_cons_self)).imp fun _ h => h.1⟩, ?_⟩
        intro out c hf
        cases hf with
        | cloudPrecipTile hn hd =>
          obtain ⟨d', hd', hm⟩ := hc.2.2 hdn _ hn
          have hd : createSingleTile m (cloudPrecipChart l).color _ id = .ok _ := hd
          rw [hd] at hd'
          cases hd'
          exact h2 _ hm
        | precip hd => exact hbin _ List.mem_cons_self _ hd
        | weather hd => exact hbin _ (List.mem_cons_of_mem _ List.mem_cons_self) _ hd
      | wind l =>
        have hc := chart_any h
        have hdn : o = .done := by cases o <;> simp_all
        refine ⟨⟨fun t ht => (hc.2.2 hdn t ht).imp fun _ h => h.1, (hb _ List.mem_cons_self).imp fun _ h => h.1⟩, ?_⟩
        intro out c hf
        cases hf with
        | windTile hn hd =>
          obtain ⟨d', hd', hm⟩ := hc.2.2 hdn _ hn
          have hd : createSingleTile m (windChart l).color _ id = .ok _ := hd
          rw [hd] at hd'
          cases hd'
          exact h2 _ hm
        | wind hd => exact hbin _ List.mem_cons_self _ hd
      | temp l =>
        have hc := chart_any h
        have hdn : o = .done := by cases o <;> simp_all
        refine ⟨⟨fun t ht => (hc.2.2 hdn t ht).imp fun _ h => h.1, (hb _ List.mem_cons_self).imp fun _ h => h.1⟩, ?_⟩
        intro out c hf
        cases hf with
        | tempTile hn hd =>
          obtain ⟨d', hd', hm⟩ := hc.2.2 hdn _ hn
          have hd : createSingleTile m (tempChart l).color _ id = .ok _ := hd
          rw [hd] at hd'
          cases hd'
          exact h2 _ hm
        | temp hd => exact hbin _ List.mem_cons_self _ hd
      | verticalCloud l =>
        refine ⟨(hb _ List.mem_cons_self).imp fun _ h => h.1, ?_⟩
        intro out c hf
        cases hf with
        | verticalCloud hd => exact hbin _ List.mem_cons_self _ hd
      | verticalWind l =>
        refine ⟨(hb _ List.mem_cons_self).imp fun _ h => h.1, ?_⟩
        intro out c hf
        cases hf with
        | verticalWind hd => exact hbin _ List.mem_cons_self _ hd

/-! ## C85: the directory of the meteobin files -/

theorem chart_dir {m : Libm} {run : Run} {step : Nat} {c : Chart} {tr : List Write} (dirs : Text → Bool)
    (h : runChart m run step (some c) tr .done) : dirExists dirs tr (outputPath run step c.layer) = true := by
  obtain ⟨t, ht⟩ := needed_exists m c.extent (zoomRange_le run.model).2 (zoomRange_le run.model).1
  obtain ⟨d, _, hm⟩ := (chart_any h).2.2 rfl t ht
  unfold dirExists
  rw [Bool.or_eq_true, List.any_eq_true]
  refine .inr ⟨_, hm, ?_⟩
  simp only [List.isPrefixOf_iff_prefix]
  unfold tilePath
  simp only [List.append_assoc, List.prefix_append]

theorem chart_done {m : Libm} {run : Run} {step : Nat} {c : Chart} {tr : List Write} {o : Outcome}
    (hall : ∀ t, Needed m c.extent run.model.zoomRange t → ∃ d, createSingleTile m c.color t id = .ok d)
    (h : runChart m run step (some c) tr o) : o = .done := by
  obtain ⟨saved, _, h⟩ := h
  exact runAllTiles_done m c.extent (zoomRange_le run.model).2 c.color id hall h

/-- C85: the meteobin files of a step whose layers can be drawn are always written, whichever directories exist
before: either the file creates its directory or the tiles have done so. -/
theorem C85_directories (m : Libm) (run : Run) (dirs : Text → Bool) (step : Nat) (l : Layers)
    (hl : CanDraw m run.model.zoomRange l) (tr : List Write) (o : Outcome) (h : RunJob m run dirs step l.job tr o) :
    o = .done := by
  cases h with
  | panicked h =>
    cases l with
    | cloudPrecip l w => exact chart_done hl.1 h
    | wind l => exact chart_done hl.1 h
    | temp l => exact chart_done hl.1 h
    | verticalCloud l => exact h.2
    | verticalWind l => exact h.2
  | bins h ho =>
    cases l with
    | cloudPrecip l w =>
      obtain rfl := chart_done hl.1 h
      have hdir := chart_dir dirs h
      refine writeBins_done _ _ _ _ _ ?_ ?_ <;> intro b hb <;> rcases List.mem_cons.mp hb with rfl | hb
      · exact hl.2.1
      · obtain rfl := List.mem_singleton.mp hb
        exact hl.2.2
      · exact .inr hdir
      · obtain rfl := List.mem_singleton.mp hb
        exact .inr hdir
    | wind l =>
      obtain rfl := chart_done hl.1 h
      have hdir := chart_dir dirs h
      refine writeBins_done _ _ _ _ _ ?_ ?_ <;> intro b hb <;> obtain rfl := List.mem_singleton.mp hb
      · exact hl.2
      · exact .inr hdir
    | temp l =>
      obtain rfl := chart_done hl.1 h
      have hdir := chart_dir dirs h
      refine writeBins_done _ _ _ _ _ ?_ ?_ <;> intro b hb <;> obtain rfl := List.mem_singleton.mp hb
      · exact hl.2
      · exact .inr hdir
    | verticalCloud l =>
      refine writeBins_done _ _ _ _ _ ?_ ?_ <;> intro b hb <;> obtain rfl := List.mem_singleton.mp hb
      · exact hl
      · exact .inl rfl
    | verticalWind l =>
      refine writeBins_done _ _ _ _ _ ?_ ?_ <;> intro b hb <;> obtain rfl := List.mem_singleton.mp hb
      · exact hl
      · exact .inl rfl

theorem chart_exists (m : Libm) (run : Run) (step : Nat) (c : Chart)
    (hall : ∀ t, Needed m c.extent run.model.zoomRange t → ∃ d, createSingleTile m c.color t id = .ok d) :
    ∃ tr, runChart m run step (some c) tr .done := by
  obtain ⟨saved, h⟩ := C32_exists m c.extent run.model.zoomRange (zoomRange_le run.model).2 c.color id hall
  exact ⟨_, saved, rfl, h⟩

/-- Such a step can be run. -/
theorem job_exists (m : Libm) (run : Run) (dirs : Text → Bool) (step : Nat) (l : Layers)
    (hl : CanDraw m run.model.zoomRange l) : ∃ tr, RunJob m run dirs step l.job tr .done := by
  have key : (∃ tr, runChart m run step l.job.chart tr .done) → ∃ tr, RunJob m run dirs step l.job tr .done := by
    rintro ⟨tr, h⟩
    have hb := RunJob.bins (m := m) (dirs := dirs) (job := l.job) h (by simp)
    rw [C85_directories m run dirs step l hl _ _ hb] at hb
    exact ⟨_, hb⟩
  apply key
  cases l with
  | cloudPrecip l w => exact chart_exists m run step _ hl.1
  | wind l => exact chart_exists m run step _ hl.1
  | temp l => exact chart_exists m run step _ hl.1
  | verticalCloud l => exact ⟨[], rfl, rfl⟩
  | verticalWind l => exact ⟨[], rfl, rfl⟩

/-! ## C53: all steps -/

theorem step_cases {m : Libm} {run : Run} {dirs : Text → Bool} {filter : List Nat} {read : RunStep → Res Layers}
    {s : RunStep} {tr : List Write} {o : Outcome} (h : runStep m run dirs filter read s tr o) :
    (¬Chosen filter s ∧ tr = [] ∧ o = .done) ∨
    (Chosen filter s ∧ read s = .err ∧ tr = [] ∧ o = .failed) ∨
    (Chosen filter s ∧ read s = .panic ∧ tr = [] ∧ o = .panicked) ∨
    (Chosen filter s ∧ ∃ l, read s = .ok l ∧ RunJob m run dirs s.nr l.job tr o) := by
  unfold runStep at h
  split at h
  · rename_i hs
    rw [selected_iff] at hs
    cases hr : read s with
    | ok l => rw [hr] at h; exact .inr (.inr (.inr ⟨hs, l, rfl, h⟩))
    | err => rw [hr] at h; exact .inr (.inl ⟨hs, rfl, h⟩)
    | panic => rw [hr] at h; exact .inr (.inr (.inl ⟨hs, rfl, h⟩))
  · rename_i hs
    rw [selected_iff] at hs
    exact .inl ⟨hs, h⟩

theorem step_chosen {m : Libm} {run : Run} {dirs : Text → Bool} {filter : List Nat} {read : RunStep → Res Layers}
    {s : RunStep} (hs : Chosen filter s) (tr : List Write) (o : Outcome) : runStep m run dirs filter read s tr o ↔
    (match read s with
    | .ok l => RunJob m run dirs s.nr l.job tr o
    | .err => tr = [] ∧ o = .failed
    | .panic => tr = [] ∧ o = .panicked) := by
  unfold runStep
  rw [if_pos ((selected_iff _ _).mpr hs)]
  cases read s <;> rfl

/-- C53: whatever happens, only files of steps that the filter selects and that could be read are written, with
the contents they should have. -/
theorem C53_only_chosen (m : Libm) (run : Run) (dirs : Text → Bool) (steps : List RunStep) (filter : List Nat)
    (read : RunStep → Res Layers) (tr : List Write) (o : Outcome) (h : renderSteps m run dirs steps filter read tr o)
    (w : Write) (hw : w ∈ tr) : Expected m run steps filter read w.path w.content := by
  obtain ⟨s, hs, t, oi, h, hw⟩ := parTry_any h w hw
  rcases step_cases h with ⟨_, rfl, _⟩ | ⟨_, _, rfl, _⟩ | ⟨_, _, rfl, _⟩ | ⟨hc, l, hr, h⟩
  · cases hw
  · cases hw
  · cases hw
  · obtain ⟨out, hf, hp⟩ := (job_any h).2.1 w hw
    exact ⟨s, hs, hc, l, hr, out, hf, hp⟩

/-- In a run that succeeds a file is written iff it belongs to a step that the filter selects. -/
theorem done_writes {m : Libm} {run : Run} {dirs : Text → Bool} {steps : List RunStep} {filter : List Nat}
    {read : RunStep → Res Layers} {tr : List Write} (h : renderSteps m run dirs steps filter read tr .done) (w : Write) :
    w ∈ tr ↔ Expected m run steps filter read w.path w.content := by
  refine ⟨C53_only_chosen m run dirs steps filter read tr .done h w, ?_⟩
  rintro ⟨s, hs, hc, l, hr, out, hf, hp⟩
  obtain ⟨traces, h1, h2⟩ := parTry_done h
  obtain ⟨i, hi, rfl⟩ := List.mem_iff_getElem.mp hs
  rw [h2]
  refine ⟨i, hi, ?_⟩
  have h := h1 i hi
  rw [step_chosen hc, hr] at h
  have := ((job_any h).2.2 rfl).2 out _ hf
  rw [← hp] at this
  exact this

theorem expected_functional {m : Libm} {run : Run} (hn : '/' ∉ run.name) {steps : List RunStep} (hs : Numbered steps)
    {filter : List Nat} {read : RunStep → Res Layers} {p : Text} {c c' : Content}
    (h : Expected m run steps filter read p c) (h' : Expected m run steps filter read p c') : c = c' := by
  obtain ⟨s, hs1, _, l, hr, out, hf, hp⟩ := h
  obtain ⟨s', hs1', _, l', hr', out', hf', hp'⟩ := h'
  obtain ⟨e1, e2⟩ := C54_same_run run hn (hp.symm.trans hp')
  obtain rfl := hs s hs1 s' hs1' e1
  subst e2
  rw [hr] at hr'
  cases hr'
  exact hf.functional hf'

/-- C53: after a run that succeeds, the files of the steps that the filter selects are there, with the right
contents, and all other files are as before. -/
theorem C53_files (m : Libm) (run : Run) (hn : '/' ∉ run.name) (dirs : Text → Bool) (steps : List RunStep)
    (hs : Numbered steps) (filter : List Nat) (read : RunStep → Res Layers) (tr : List Write)
    (h : renderSteps m run dirs steps filter read tr .done) (before : Tree) (p : Text) :
    (∀ c, Expected m run steps filter read p c → before.write tr p = some c) ∧
    ((∀ c, ¬Expected m run steps filter read p c) → before.write tr p = before p) := by
  constructor
  · intro c hc
    refine (before.write_eq tr p).1 c ⟨⟨p, c⟩, (done_writes h _).mpr hc, rfl⟩ fun w hw hp => ?_
    have := (done_writes h _).mp hw
    rw [hp] at this
    exact expected_functional hn hs this hc
  · intro hc
    refine (before.write_eq tr p).2 fun w hw hp => hc w.content ?_
    have := (done_writes h _).mp hw
    rwa [hp] at this

/-- C53: any two successful runs produce the same files, in whatever order and interleaving the steps and tiles were
processed. -/
theorem C53_schedule (m : Libm) (run : Run) (hn : '/' ∉ run.name) (dirs dirs' : Text → Bool) (steps : List RunStep)
    (hs : Numbered steps) (filter : List Nat) (read : RunStep → Res Layers) (tr tr' : List Write)
    (h : renderSteps m run dirs steps filter read tr .done) (h' : renderSteps m run dirs' steps filter read tr' .done)
    (before : Tree) : before.write tr = before.write tr' := by
  refine Tree.write_congr (fun w => (done_writes h w).trans (done_writes h' w).symm) (fun w hw w' hw' e => ?_) before
  have h1 := (done_writes h w).mp hw
  have h2 := (done_writes h w').mp hw'
  rw [← e] at h2
  exact expected_functional hn hs h1 h2

/-- C53: an error is possible iff reading a step that the filter selects is one; the other steps do not matter. -/
theorem C53_fails_iff (m : Libm) (run : Run) (dirs : Text → Bool) (steps : List RunStep) (filter : List Nat)
    (read : RunStep → Res Layers) :
    (∃ tr, renderSteps m run dirs steps filter read tr .failed) ↔ ∃ s ∈ steps, Chosen filter s ∧ read s = .err := by
  constructor
  · rintro ⟨tr, h⟩
    obtain ⟨s, hs, t, h⟩ := parTry_failed h
    rcases step_cases h with ⟨_, _, h⟩ | ⟨hc, hr, _⟩ | ⟨_, _, _, h⟩ | ⟨_, l, _, h⟩
    · cases h
    · exact ⟨s, hs, hc, hr⟩
    · cases h
    · exact absurd rfl (job_any h).1
  · rintro ⟨s, hs, hc, hr⟩
    refine ⟨[], parTry_exists_failed hs ?_⟩
    rw [step_chosen hc, hr]
    exact ⟨rfl, rfl⟩

/-- C53: if the run succeeds, every step that the filter selects was read and drawn; if all of them can be read and
drawn, every run succeeds and there is one. -/
theorem C53_succeeds_iff (m : Libm) (run : Run) (dirs : Text → Bool) (steps : List RunStep) (filter : List Nat)
    (read : RunStep → Res Layers) :
    ((∃ tr, renderSteps m run dirs steps filter read tr .done) ↔
      ∀ s ∈ steps, Chosen filter s → ∃ l, read s = .ok l ∧ CanDraw m run.model.zoomRange l) ∧
    ((∀ s ∈ steps, Chosen filter s → ∃ l, read s = .ok l ∧ CanDraw m run.model.zoomRange l) →
      ∀ tr o, renderSteps m run dirs steps filter read tr o → o = .done) := by
  refine ⟨⟨?_, ?_⟩, ?_⟩
  · rintro ⟨tr, h⟩ s hs hc
    obtain ⟨traces, h1, _⟩ := parTry_done h
    obtain ⟨i, hi, rfl⟩ := List.mem_iff_getElem.mp hs
    have h := h1 i hi
    rcases step_cases h with ⟨h, _⟩ | ⟨_, _, _, h⟩ | ⟨_, _, _, h⟩ | ⟨_, l, hr, h⟩
    · exact absurd hc h
    · cases h
    · cases h
    · exact ⟨l, hr, ((job_any h).2.2 rfl).1⟩
  · intro hall
    refine parTry_exists_done fun s hs => ?_
    by_cases hc : Chosen filter s
    · obtain ⟨l, hr, hl⟩ := hall s hs hc
      obtain ⟨tr, h⟩ := job_exists m run dirs s.nr l hl
      exact ⟨tr, by rw [step_chosen hc, hr]; exact h⟩
    · refine ⟨[], ?_⟩
      unfold runStep
      rw [if_neg (by rw [selected_iff]; exact hc)]
      exact ⟨rfl, rfl⟩
  · intro hall tr o h
    have key : ∀ s ∈ steps, ∀ t oi, runStep m run dirs filter read s t oi → oi = .done := by
      intro s hs t oi h
      rcases step_cases h with ⟨_, _, h⟩ | ⟨hc, hr, _⟩ | ⟨hc, hr, _⟩ | ⟨hc, l, hr, h⟩
      · exact h
      · obtain ⟨l, hl, _⟩ := hall s hs hc; rw [hr] at hl; cases hl
      · obtain ⟨l, hl, _⟩ := hall s hs hc; rw [hr] at hl; cases hl
      · obtain ⟨l', hl, hd⟩ := hall s hs hc
        rw [hr] at hl
        cases hl
        exact C85_directories m run dirs s.nr l hd t oi h
    cases o with
    | done => rfl
    | failed => obtain ⟨s, hs, t, h⟩ := parTry_failed h; cases key s hs _ _ h
    | panicked => obtain ⟨s, hs, t, h⟩ := parTry_panicked h; cases key s hs _ _ h

/-! ## Both sources number their steps -/

/-- C53: the steps of the DWD models have different numbers. -/
theorem C53_dwd_numbered (m : FcModel) : Numbered m.forecastSteps := by
  intro s hs s' hs' e
  unfold FcModel.forecastSteps at hs hs'
  obtain ⟨n, _, rfl⟩ := List.mem_map.mp hs
  obtain ⟨n', _, rfl⟩ := List.mem_map.mp hs'
  simp only at e
  rw [e]

/-- C53: so have the steps of the MeteoSwiss models. -/
theorem C53_swiss_numbered (files : List SwissSearch.Step) (skip : Bool) :
    Numbered (SwissSearch.runSteps files skip) := by
  intro s hs s' hs' e
  obtain ⟨x, h1, h2, _⟩ := (SwissSearch.mem_runSteps _ _ _).mp hs
  obtain ⟨x', h1', h2', _⟩ := (SwissSearch.mem_runSteps _ _ _).mp hs'
  rw [e, h1'] at h1
  cases h1
  cases s; cases s'
  simp_all

/-- Two steps of which the filter selects one; the other cannot be read. -/
example (m : Libm) : ∃ l, CanDraw m (0, 7) l ∧
    ∀ s ∈ [(⟨2, []⟩ : RunStep), ⟨3, []⟩], Chosen [3] s → (fun s : RunStep => if s.nr = 3 then Res.ok l else .err) s = .ok l := by
  refine ⟨.verticalCloud ⟨[rowGrid [10, 11] 255, rowGrid [20, 255] 255], [rowGrid [50, 60] 255, rowGrid [70, 80] 255]⟩,
    ⟨[10, 50, 20, 70, 11, 60, 255, 80], by decide +kernel⟩, ?_⟩
  intro s _ hc
  rcases hc with h | h
  · cases h
  · exact if_pos (List.mem_singleton.mp h)

end Verif.Props
