import Verif.Model.Swiss
import Verif.Lemmas.MapTile
import Verif.Props.Dwd
import Verif.Props.Swiss

/-!
# C54, C55, C84: output paths and steps of a forecast
-/

namespace Verif.Props

open Verif MapTileRenderer

/-! ## C54: paths -/

/-- A file that is written for a step: a map tile of one of the three charts or a meteobin file. -/
inductive Output where
  | cloudPrecipTile (t : MapTileCoord)
  | windTile (t : MapTileCoord)
  | tempTile (t : MapTileCoord)
  | bin (b : BinType)
  deriving DecidableEq

/-- Its path. -/
def Output.path (run : Run) (step : Nat) : Output → Text
  | .cloudPrecipTile t => tilePath (outputPath run step .cloudPrecip) t
  | .windTile t => tilePath (outputPath run step .wind10m) t
  | .tempTile t => tilePath (outputPath run step .temp2m) t
  | .bin b => binPath run step b

/-- The directory of an output below the directory of the step, and the rest of its path. -/
def Output.parts : Output → Text × Text
  | .cloudPrecipTile t => (LayerType.cloudPrecip.subdir, dec t.zoom ++ '/' :: (dec t.x ++ '/' :: (dec t.y ++ ['.', 'p', 'n', 'g'])))
  | .windTile t => (LayerType.wind10m.subdir, dec t.zoom ++ '/' :: (dec t.x ++ '/' :: (dec t.y ++ ['.', 'p', 'n', 'g'])))
  | .tempTile t => (LayerType.temp2m.subdir, dec t.zoom ++ '/' :: (dec t.x ++ '/' :: (dec t.y ++ ['.', 'p', 'n', 'g'])))
  | .bin b => (b.layer.subdir, b.file)

theorem Output.path_eq (run : Run) (step : Nat) (o : Output) : o.path run step =
    "./output/".toList ++ (run.model.name ++ '/' :: ((run.date.fmt ++ run.name) ++ '/' :: (decPad 3 step ++ '/' ::
      (o.parts.1 ++ '/' :: o.parts.2)))) := by
  cases o <;> unfold Output.path Output.parts <;> (try unfold tilePath) <;> (try unfold binPath) <;>
    unfold outputPath <;> generalize "./output/".toList = out <;>
    simp only [List.append_assoc, List.cons_append, List.nil_append]

theorem subdir_no_slash (l : LayerType) : '/' ∉ l.subdir := by cases l <;> decide +kernel

theorem Output.subdir_no_slash (o : Output) : '/' ∉ o.parts.1 := by
  cases o with
  | cloudPrecipTile t => exact Verif.Props.subdir_no_slash .cloudPrecip
  | windTile t => exact Verif.Props.subdir_no_slash .wind10m
  | tempTile t => exact Verif.Props.subdir_no_slash .temp2m
  | bin b => exact Verif.Props.subdir_no_slash b.layer

theorem model_no_slash (m : FcModel) : '/' ∉ m.name := by cases m <;> decide +kernel

theorem model_name_inj {m m' : FcModel} (h : m.name = m'.name) : m = m' := by
  revert h; cases m <;> cases m' <;> decide +kernel

theorem file_no_slash (b : BinType) : '/' ∉ b.file := by cases b <;> decide +kernel

theorem fmt_no_slash (d : Date) : '/' ∉ d.fmt := by
  have hd : ∀ k n, '/' ∉ decPad k n := fun k n => slash_not_digit (decPad_digits k n)
  unfold Date.fmt Date.fmtYear
  simp only [List.mem_append, not_or]
  refine ⟨⟨?_, hd _ _⟩, hd _ _⟩
  split
  · exact hd _ _
  · simp only [List.mem_cons, not_or]
    refine ⟨?_, hd _ _⟩
    split <;> decide

theorem tile_inj {s t : MapTileCoord}
    (h : dec s.zoom ++ '/' :: (dec s.x ++ '/' :: (dec s.y ++ ['.', 'p', 'n', 'g'])) =
      dec t.zoom ++ '/' :: (dec t.x ++ '/' :: (dec t.y ++ ['.', 'p', 'n', 'g']))) : s = t := by
  apply tilePath_inj (out := [])
  simpa [tilePath] using h

theorem Output.parts_inj {o o' : Output} (h : o.parts = o'.parts) : o = o' := by
  have e1 := congrArg Prod.fst h
  have e2 := congrArg Prod.snd h
  have hs : ∀ (t : MapTileCoord) (b : BinType),
      dec t.zoom ++ '/' :: (dec t.x ++ '/' :: (dec t.y ++ ['.', 'p', 'n', 'g'])) ≠ b.file := by
    intro t b h
    exact file_no_slash b (h ▸ by simp)
  have hsd : LayerType.cloudPrecip.subdir ≠ LayerType.wind10m.subdir ∧
      LayerType.cloudPrecip.subdir ≠ LayerType.temp2m.subdir ∧
      LayerType.wind10m.subdir ≠ LayerType.temp2m.subdir := by decide +kernel
  cases o <;> cases o'
  case bin.bin b b' =>
    congr 1
    revert e2
    unfold Output.parts
    cases b <;> cases b' <;> decide +kernel
  all_goals first
    | exact congrArg _ (tile_inj e2)
    | exact absurd e2 (hs _ _)
    | exact absurd e2.symm (hs _ _)
    | exact absurd e1 hsd.1
    | exact absurd e1 hsd.2.1
    | exact absurd e1 hsd.2.2
    | exact absurd e1.symm hsd.1
    | exact absurd e1.symm hsd.2.1
    | exact absurd e1.symm hsd.2.2

/-- The usual runs of any model: dates with four-digit years, names of two characters that are no slashes. -/
def UsualName (run : Run) : Prop := run.date.Usual ∧ run.name.length = 2 ∧ '/' ∉ run.name

/-- C54: within a run a path determines the step and which output it is. -/
theorem C54_same_run (run : Run) (hn : '/' ∉ run.name) {step step' : Nat} {o o' : Output}
    (h : o.path run step = o'.path run step') : step = step' ∧ o = o' := by
  rw [Output.path_eq, Output.path_eq] at h
  have h1 := List.append_cancel_left h
  have h2 := (split_sep (model_no_slash _) (model_no_slash _) h1).2
  have hdn : '/' ∉ run.date.fmt ++ run.name := by
    rw [List.mem_append, not_or]; exact ⟨fmt_no_slash _, hn⟩
  have h3 := (split_sep hdn hdn h2).2
  have hd : ∀ n, '/' ∉ decPad 3 n := fun n => slash_not_digit (decPad_digits 3 n)
  obtain ⟨es, h4⟩ := split_sep (hd _) (hd _) h3
  obtain ⟨e1, e2⟩ := split_sep o.subdir_no_slash o'.subdir_no_slash h4
  exact ⟨decPad_inj es, Output.parts_inj (Prod.ext e1 e2)⟩

/-- C54: a path determines the run, the step and which output it is. -/
theorem C54_paths {run run' : Run} (hr : UsualName run) (hr' : UsualName run') {step step' : Nat} {o o' : Output}
    (h : o.path run step = o'.path run' step') : run = run' ∧ step = step' ∧ o = o' := by
  obtain ⟨hd, hl, hn⟩ := hr
  obtain ⟨hd', hl', hn'⟩ := hr'
  have key : run = run' := by
    rw [Output.path_eq, Output.path_eq] at h
    have h1 := List.append_cancel_left h
    obtain ⟨em, h2⟩ := split_sep (model_no_slash _) (model_no_slash _) h1
    have hdn : ∀ r : Run, '/' ∉ r.name → '/' ∉ r.date.fmt ++ r.name := by
      intro r hr; rw [List.mem_append, not_or]; exact ⟨fmt_no_slash _, hr⟩
    have e := (split_sep (hdn run hn) (hdn run' hn') h2).1
    obtain ⟨ed, en⟩ := List.append_inj e (by rw [Date.fmt_length hd, Date.fmt_length hd'])
    have em := model_name_inj em
    have ed := Date.fmt_inj hd hd' ed
    cases run; cases run'
    simp only at em ed en
    simp only [em, ed, en]
  subst key
  exact ⟨rfl, C54_same_run run hn h⟩

example : Output.path ⟨.iconCh1, ⟨2025, 8, 5⟩, "06".toList⟩ 7 (.windTile ⟨4, 5, 3⟩) =
    "./output/icon-ch1/2025080506/007/wind/3/4/5.png".toList := by decide +kernel

example : UsualName ⟨.iconCh1, ⟨2025, 8, 5⟩, "06".toList⟩ :=
  ⟨⟨by decide +kernel, by norm_num, by norm_num⟩, by decide +kernel, by decide +kernel⟩

/-! ## C55: precipitation steps -/

theorem getStepByNr_map {ns : List Nat} {n : Nat} (h : n ∈ ns) :
    getStepByNr (ns.map fun n => ⟨n, []⟩) n = .ok ⟨n, []⟩ := by
  unfold getStepByNr
  have : (ns.map fun n => (⟨n, []⟩ : RunStep)).find? (fun s => s.nr == n) = some ⟨n, []⟩ := by
    induction ns with
    | nil => cases h
    | cons a ns ih =>
      by_cases ha : a = n
      · subst ha
        simp
      · rw [List.map_cons, List.find?_cons_of_neg (by simpa using ha)]
        exact ih ((List.mem_cons.mp h).resolve_left (fun e => ha e.symm))
  rw [this]
  rfl

theorem cloudPrecipSteps_ok {s c p0 p1 : RunStep} {clct prec : List RunStep} (h0 : s.nr ≠ 0)
    (h1 : getStepByNr clct s.nr = .ok c) (h2 : getStepByNr prec (s.nr - 1) = .ok p0)
    (h3 : getStepByNr prec s.nr = .ok p1) : cloudPrecipSteps s clct prec = .ok (c, p0, p1) := by
  unfold cloudPrecipSteps
  rw [h1, h2, h3]
  show (if s.nr = 0 then _ else _) = _
  rw [if_neg h0]
  rfl

/-- C55: for every model and every step that is rendered both precipitation steps are found, they are the step
before and the step itself. -/
theorem C55_dwd (m : FcModel) : ∃ diff, m.forecastDiffSteps = .ok diff ∧ ∀ s ∈ m.forecastSteps,
    2 ≤ s.nr ∧ cloudPrecipSteps s m.forecastSteps diff = .ok (⟨s.nr, []⟩, ⟨s.nr - 1, []⟩, ⟨s.nr, []⟩) := by
  have h2 : m.stepRange.1 = 2 := by cases m <;> rfl
  refine ⟨(rangeIncl (m.stepRange.1 - 1) m.stepRange.2).map fun n => ⟨n, []⟩, ?_, ?_⟩
  · unfold FcModel.forecastDiffSteps FcModel.diffStepRange
    rw [if_pos (by omega)]
    rfl
  · intro s hs
    unfold FcModel.forecastSteps at hs
    obtain ⟨n, hn, rfl⟩ := List.mem_map.mp hs
    have hb := mem_rangeIncl.mp hn
    unfold FcModel.forecastSteps
    refine ⟨by simp only; omega, cloudPrecipSteps_ok (by simp only; omega) (getStepByNr_map hn)
      (getStepByNr_map (mem_rangeIncl.mpr ⟨?_, ?_⟩)) (getStepByNr_map (mem_rangeIncl.mpr ⟨?_, ?_⟩))⟩ <;>
    simp only <;> omega

/-! ## C84: precipitation steps of MeteoSwiss -/

open SwissSearch

theorem find_runSteps (files : List Step) (skip : Bool) (n : Nat) (hn : n < files.length) (hs : skip = true → 1 ≤ n) :
    getStepByNr (runSteps files skip) n = .ok ⟨n, files[n].href⟩ := by
  unfold getStepByNr
  have hm : (⟨n, files[n].href⟩ : RunStep) ∈ runSteps files skip := by
    rw [mem_runSteps]
    exact ⟨files[n], List.getElem?_eq_getElem hn, rfl, hs⟩
  cases hf : (runSteps files skip).find? (fun s => s.nr == n) with
  | none =>
    rw [List.find?_eq_none] at hf
    have := hf _ hm
    simp at this
  | some r =>
    have h1 := List.mem_of_find?_eq_some hf
    have h2 := List.find?_some hf
    simp only [beq_iff_eq] at h2
    obtain ⟨s, hs, hu, _⟩ := (mem_runSteps _ _ _).mp h1
    rw [h2, List.getElem?_eq_getElem hn] at hs
    simp only [Option.some.injEq] at hs
    show Res.ok r = _
    cases r
    simp only at h2 hu
    rw [h2, hu, hs]

/-- C84: every step that is rendered finds its precipitation files if there are at
least as many of them as cloud files.  Missing for the full statement: fewer precipitation files, for which it is
false. -/
theorem C84_steps_partial (clct prec : List Step) (h : clct.length ≤ prec.length) (s : RunStep)
    (hs : s ∈ runSteps clct true) : ∃ c p0 p1, cloudPrecipSteps s (runSteps clct true) (runSteps prec false) = .ok (c, p0, p1) ∧
      c = s ∧ p0.nr + 1 = s.nr ∧ p1.nr = s.nr ∧ prec[p0.nr]?.map Step.href = some p0.url ∧
      prec[p1.nr]?.map Step.href = some p1.url := by
  obtain ⟨x, h1, h2, h3⟩ := (mem_runSteps _ _ _).mp hs
  have hl := (List.getElem?_eq_some_iff.mp h1).1
  have hx := (List.getElem?_eq_some_iff.mp h1).2
  have hp := h3 rfl
  refine ⟨_, _, _, cloudPrecipSteps_ok (by omega) (find_runSteps clct true s.nr hl (fun _ => hp))
    (find_runSteps prec false (s.nr - 1) (by omega) (by simp)) (find_runSteps prec false s.nr (by omega) (by simp)),
    ?_, ?_, rfl, ?_, ?_⟩
  · cases s
    simp only at h1 h2 hx ⊢
    rw [hx, h2]
  · simp only; omega
  · simp only
    rw [List.getElem?_eq_getElem (by omega)]; rfl
  · simp only
    rw [List.getElem?_eq_getElem (by omega)]; rfl

/-- C84 (every cloud step finds its precipitation files) is false if a precipitation file is missing: the program panics, whatever the
files are. -/
theorem C84_counterexample (clct prec : List Step) (h : prec.length < clct.length) (h2 : 2 ≤ clct.length) :
    ∃ s ∈ runSteps clct true, cloudPrecipSteps s (runSteps clct true) (runSteps prec false) = .panic := by
  have hl : clct.length - 1 < clct.length := by omega
  refine ⟨⟨clct.length - 1, clct[clct.length - 1].href⟩, ?_, ?_⟩
  · rw [mem_runSteps]
    exact ⟨_, List.getElem?_eq_getElem hl, rfl, fun _ => by simp only; omega⟩
  · unfold cloudPrecipSteps
    simp only
    rw [find_runSteps clct true (clct.length - 1) hl (fun _ => by omega)]
    show (if clct.length - 1 = 0 then _ else _) = _
    rw [if_neg (by omega)]
    have hnone : ∀ r : Res RunStep, r ≠ .panic → ∀ k : RunStep → Res (RunStep × RunStep × RunStep),
        (∀ x, k x = .panic) → Res.bind (Res.unwrapResult r) k = .panic := by
      intro r hr k hk
      cases r with
      | ok x => exact hk x
      | err => rfl
      | panic => rfl
    have hg : ∀ l n, getStepByNr l n ≠ .panic := by
      intro l n
      unfold getStepByNr
      cases List.find? (fun s => s.nr == n) l <;> simp
    have hlast : getStepByNr (runSteps prec false) (clct.length - 1) = .err := by
      unfold getStepByNr
      rw [List.find?_eq_none.mpr]
      · rfl
      · intro r hr
        obtain ⟨s, a, _, _⟩ := (mem_runSteps _ _ _).mp hr
        have := (List.getElem?_eq_some_iff.mp a).1
        simp only [beq_iff_eq]
        omega
    refine hnone _ (hg _ _) _ fun x => ?_
    rw [hlast]
    rfl

example : (1 : Nat) < [⟨[], ⟨0, 0⟩, []⟩, (⟨[], ⟨0, 1⟩, []⟩ : Step)].length := by decide

end Verif.Props
