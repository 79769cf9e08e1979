import Verif.Props.Together
import Verif.Props.Disk
import Verif.Props.Network

/-!
# C177: a call writes each file once
-/

namespace Verif.Props

open Verif MapTileRenderer Dwd

/-! ## What is written by a part of the program -/

/-- Whatever happens, no path is written twice and all paths are of a given kind. -/
def OnceIn (e : Effect) (S : Text → Prop) : Prop :=
  ∀ tr o, e tr o → (tr.map Write.path).Nodup ∧ ∀ x ∈ tr, S x.path

theorem OnceIn.mono {e : Effect} {S S' : Text → Prop} (h : OnceIn e S) (hs : ∀ p, S p → S' p) : OnceIn e S' :=
  fun tr o ht => ⟨(h tr o ht).1, fun x hx => hs _ ((h tr o ht).2 x hx)⟩

theorem OnceIn.nothing {S : Text → Prop} {o' : Outcome} : OnceIn (fun tr o => tr = [] ∧ o = o') S := by
  rintro tr o ⟨rfl, rfl⟩
  exact ⟨List.nodup_nil, fun x hx => by cases hx⟩

theorem OnceIn.need {α : Type} {r : Res α} {f : α → Effect} {S : Text → Prop}
    (h : ∀ a, r = .ok a → OnceIn (f a) S) : OnceIn (Effect.need r f) S := by
  cases r with
  | ok a => exact h a rfl
  | err => exact .nothing
  | panic => exact .nothing

theorem OnceIn.when {c : Bool} {e : Effect} {S : Text → Prop} (h : OnceIn e S) : OnceIn (Effect.when c e) S := by
  cases c with
  | true => exact h
  | false => exact .nothing

theorem nodup_paths_append {a b : List Write} {S S' : Text → Prop} (ha : (a.map Write.path).Nodup ∧ ∀ x ∈ a, S x.path)
    (hb : (b.map Write.path).Nodup ∧ ∀ x ∈ b, S' x.path) (hd : ∀ p, S p → ¬S' p) :
    ((a ++ b).map Write.path).Nodup ∧ ∀ x ∈ a ++ b, S x.path ∨ S' x.path := by
  refine ⟨?_, fun x hx => (List.mem_append.mp hx).imp (ha.2 x) (hb.2 x)⟩
  rw [List.map_append, List.nodup_append]
  refine ⟨ha.1, hb.1, fun p hp q hq e => ?_⟩
  subst e
  obtain ⟨x, hx, rfl⟩ := List.mem_map.mp hp
  obtain ⟨y, hy, e⟩ := List.mem_map.mp hq
  exact hd _ (ha.2 x hx) (e ▸ hb.2 y hy)

theorem OnceIn.seq_nil {S : Text → Prop} : OnceIn (Seq []) S := by
  intro tr o h
  cases h
  exact ⟨List.nodup_nil, fun x hx => by cases hx⟩

theorem OnceIn.seq_cons {e : Effect} {es : List Effect} {S S' : Text → Prop} (h : OnceIn e S) (hs : OnceIn (Seq es) S')
    (hd : ∀ p, S p → ¬S' p) : OnceIn (Seq (e :: es)) fun p => S p ∨ S' p := by
  intro tr o ht
  cases ht with
  | cons h1 h2 => exact nodup_paths_append (h _ _ h1) (hs _ _ h2) hd
  | stop h1 _ => exact ⟨(h _ _ h1).1, fun x hx => .inl ((h _ _ h1).2 x hx)⟩

/-- A parallel loop whose items write to different places. -/
theorem OnceIn.parTry {α : Type} {work : α → Effect} {items : List α} {S : α → Text → Prop}
    (h : ∀ a ∈ items, OnceIn (work a) (S a))
    (hd : ∀ i j (hi : i < items.length) (hj : j < items.length), i ≠ j → ∀ p, S items[i] p → ¬S items[j] p) :
    OnceIn (ParTry work items) fun p => ∃ a ∈ items, S a p := by
  intro tr o ht
  cases ht with
  | mk tagged ends _ tags ran skipped panicked failed =>
    have key : ∀ i (hi : i < items.length), (((tagged.filter fun e => e.1 == i).map Prod.snd).map Write.path).Nodup ∧
        ∀ x ∈ (tagged.filter fun e => e.1 == i).map Prod.snd, S items[i] x.path := by
      intro i hi
      cases he : ends i with
      | none =>
        rw [(skipped i hi he).1]
        exact ⟨List.nodup_nil, fun x hx => by cases hx⟩
      | some oi => exact h _ (List.getElem_mem hi) _ _ (ran i hi oi he)
    have place : ∀ t ∈ tagged, ∃ hi : t.1 < items.length, S items[t.1] t.2.path := fun t ht =>
      ⟨tags t ht, (key t.1 (tags t ht)).2 t.2 (List.mem_map.mpr ⟨t, List.mem_filter.mpr ⟨ht, by simp⟩, rfl⟩)⟩
    refine ⟨?_, fun x hx => ?_⟩
    · clear ran skipped panicked failed
      induction tagged with
      | nil => exact List.nodup_nil
      | cons t ts ih =>
        have hsub : ∀ i, List.Sublist (ts.filter fun e => e.1 == i) ((t :: ts).filter fun e => e.1 == i) := fun i =>
          (List.sublist_cons_self t ts).filter _
        rw [List.map_cons, List.map_cons, List.nodup_cons]
        refine ⟨fun hm => ?_, ih (fun e he => tags e (List.mem_cons_of_mem _ he)) (fun i hi => ?_)
          fun e he => place e (List.mem_cons_of_mem _ he)⟩
        · obtain ⟨x, hx, hp⟩ := List.mem_map.mp hm
          obtain ⟨u, hu, rfl⟩ := List.mem_map.mp hx
          obtain ⟨hi, st⟩ := place t List.mem_cons_self
          obtain ⟨hj, su⟩ := place u (List.mem_cons_of_mem _ hu)
          by_cases e : t.1 = u.1
          · have hn := (key t.1 hi).1
            rw [List.filter_cons_of_pos (by simp), List.map_cons, List.map_cons, List.nodup_cons] at hn
            exact hn.1 (hp ▸ List.mem_map.mpr ⟨u.2, List.mem_map.mpr ⟨u, List.mem_filter.mpr ⟨hu, by simp [e]⟩, rfl⟩, rfl⟩)
          · exact hd _ _ hi hj e _ st (hp ▸ su)
        · exact ⟨(((hsub i).map Prod.snd).map Write.path).nodup (key i hi).1,
            fun x hx => (key i hi).2 x (((hsub i).map Prod.snd).subset hx)⟩
    · obtain ⟨t, ht, rfl⟩ := List.mem_map.mp hx
      obtain ⟨hi, hs⟩ := place t ht
      exact ⟨_, List.getElem_mem hi, hs⟩

/-! ## Steps -/

/-- The files of a variable at a step of a run. -/
def StepFile (run : Run) (v : LayerType) (step : Nat) (p : Text) : Prop :=
  ∃ out : Output, out.variable = v ∧ p = out.path run step

theorem once_chart {m : Libm} {run : Run} {step : Nat} {c : Option Chart} {tr : List Write} {o : Outcome}
    (h : runChart m run step c tr o) : (tr.map Write.path).Nodup := by
  cases c with
  | none => rw [h.1]; exact List.nodup_nil
  | some c =>
    obtain ⟨saved, rfl, h⟩ := h
    have hn := (C32_no_wrong_tile m c.extent run.model.zoomRange c.color id saved o h).1
    unfold tileWrites
    rw [List.map_map]
    have e : (Write.path ∘ fun s : Saved => (⟨tilePath (outputPath run step c.layer) s.tile, .picture s.picture⟩ : Write)) =
        tilePath (outputPath run step c.layer) ∘ Saved.tile := rfl
    rw [e, ← List.map_map]
    exact hn.map fun a b => tilePath_inj

/-- The data files are written after each other, each once. -/
theorem once_bins {run : Run} {step : Nat} {dirs : Text → Bool} (bins : List Bin) (tr : List Write)
    (h : (tr.map Write.path ++ bins.map fun b => binPath run step b.type).Nodup) :
    ((writeBins run step dirs tr bins).1.map Write.path).Nodup := by
  induction bins generalizing tr with
  | nil => simpa [writeBins] using h
  | cons b bs ih =>
    have h0 : (tr.map Write.path).Nodup := (List.nodup_append.mp h).1
    rw [writeBins]
    split
    · split
      · refine ih _ ?_
        simpa using h
      · exact h0
    · exact h0

theorem chart_tile {m : Libm} {run : Run} {step : Nat} {l : Layers} {tr : List Write} {o : Outcome}
    (h : runChart m run step l.job.chart tr o) : ∀ x ∈ tr, ∃ out : Output, (∀ b, out ≠ .bin b) ∧ x.path = out.path run step := by
  intro x hx
  cases l with
  | cloudPrecip l w =>
    obtain ⟨t, d, _, _, rfl⟩ := (chart_any h).2.1 x hx
    exact ⟨.cloudPrecipTile t, fun b => (by simp), rfl⟩
  | wind l =>
    obtain ⟨t, d, _, _, rfl⟩ := (chart_any h).2.1 x hx
    exact ⟨.windTile t, fun b => (by simp), rfl⟩
  | temp l =>
    obtain ⟨t, d, _, _, rfl⟩ := (chart_any h).2.1 x hx
    exact ⟨.tempTile t, fun b => (by simp), rfl⟩
  | verticalCloud l => rw [h.1] at hx; cases hx
  | verticalWind l => rw [h.1] at hx; cases hx

theorem once_job (m : Libm) {run : Run} (hn : '/' ∉ run.name) (dirs : Text → Bool) (step : Nat) (l : Layers) :
    OnceIn (RunJob m run dirs step l.job) (StepFile run (variableOf l) step) := by
  intro tr o h
  refine ⟨?_, fun x hx => ?_⟩
  · cases h with
    | panicked h => exact once_chart h
    | bins h ho =>
      rename_i tr o
      refine once_bins _ _ (List.nodup_append.mpr ⟨once_chart h, ?_, ?_⟩)
      · have key : ∀ b b' : BinType, binPath run step b = binPath run step b' → b = b' := fun b b' e => by
          have := (C54_same_run run hn (o := .bin b) (o' := .bin b') e).2
          cases this
          rfl
        cases l
        case cloudPrecip =>
          show [binPath run step .precip, binPath run step .weather].Nodup
          simp only [List.nodup_cons, List.mem_singleton, List.not_mem_nil, not_false_eq_true, List.nodup_nil, and_true]
          intro e
          cases key _ _ e
        all_goals exact List.nodup_singleton _
      · intro p hp q hq e
        subst e
        obtain ⟨x, hx, rfl⟩ := List.mem_map.mp hp
        obtain ⟨b, _, e⟩ := List.mem_map.mp hq
        obtain ⟨out, h1, h2⟩ := chart_tile h x hx
        exact h1 b.type (C54_same_run run hn (o := .bin b.type) (o' := out) (e.trans h2)).2.symm
  · obtain ⟨out, hf, hp⟩ := (job_any h).2.1 x hx
    exact ⟨out, hf.variable, hp⟩

theorem once_step (m : Libm) {run : Run} (hn : '/' ∉ run.name) (dirs : Text → Bool) (filter : List Nat)
    {read : RunStep → Res Layers} {v : LayerType} (hv : ∀ s l, read s = .ok l → variableOf l = v) (s : RunStep) :
    OnceIn (runStep m run dirs filter read s) (StepFile run v s.nr) := by
  intro tr o h
  unfold runStep at h
  split at h
  · cases hr : read s with
    | ok l =>
      rw [hr] at h
      exact hv s l hr ▸ once_job m hn dirs s.nr l tr o h
    | err => rw [hr] at h; exact OnceIn.nothing tr o h
    | panic => rw [hr] at h; exact OnceIn.nothing tr o h
  · exact OnceIn.nothing tr o h

/-- The files of a variable of a run. -/
def RunFile (run : Run) (v : LayerType) (p : Text) : Prop := ∃ step, StepFile run v step p

theorem once_steps (m : Libm) {run : Run} (hn : '/' ∉ run.name) (dirs : Text → Bool) {steps : List RunStep}
    (hs : (steps.map RunStep.nr).Nodup) (filter : List Nat) {read : RunStep → Res Layers} {v : LayerType}
    (hv : ∀ s l, read s = .ok l → variableOf l = v) : OnceIn (renderSteps m run dirs steps filter read) (RunFile run v) := by
  have key := OnceIn.parTry (work := runStep m run dirs filter read) (items := steps) (S := fun s => StepFile run v s.nr)
    (fun s _ => once_step m hn dirs filter hv s) ?_
  · refine key.mono ?_
    rintro p ⟨s, _, h⟩
    exact ⟨s.nr, h⟩
  · rintro i j hi hj hij p ⟨out, _, e⟩ ⟨out', _, e'⟩
    have h := (C54_same_run run hn (e.symm.trans e')).1
    refine hij ((List.Nodup.getElem_inj_iff hs (i := i) (j := j) (hi := by simpa using hi) (hj := by simpa using hj)).mp ?_)
    simpa using h

theorem RunFile.only {run : Run} (hn : '/' ∉ run.name) {v v' : LayerType} {p : Text} (h : RunFile run v p)
    (h' : RunFile run v' p) : v = v' := by
  obtain ⟨step, out, h1, h2⟩ := h
  obtain ⟨step', out', h1', h2'⟩ := h'
  rw [← h1, ← h1', (C54_same_run run hn (h2.symm.trans h2')).2]

/-- The two parts of a run with levels. -/
theorem once_pair {run : Run} (hn : '/' ∉ run.name) {c c' : Bool} {e e' : Effect}
    (h : OnceIn e (RunFile run .verticalCloud)) (h' : OnceIn e' (RunFile run .verticalWind)) :
    OnceIn (Seq [Effect.when c e, Effect.when c' e'])
      fun p => RunFile run .verticalCloud p ∨ RunFile run .verticalWind p ∨ False :=
  .seq_cons (.when h) (.seq_cons (.when h') .seq_nil fun p _ h => h) fun p h h' => by
    rcases h' with h' | h'
    · cases h.only hn h'
    · exact h'

/-- The parts of a run. -/
theorem once_parts {run : Run} (hn : '/' ∉ run.name) {c1 c2 c3 c4 : Bool} {e1 e2 e3 e4 : Effect}
    (h1 : OnceIn e1 (RunFile run .cloudPrecip)) (h2 : OnceIn e2 (RunFile run .wind10m))
    (h3 : OnceIn e3 (RunFile run .temp2m))
    (h4 : OnceIn e4 fun p => RunFile run .verticalCloud p ∨ RunFile run .verticalWind p ∨ False) :
    OnceIn (Seq [Effect.when c1 e1, Effect.when c2 e2, Effect.when c3 e3, Effect.when c4 e4])
      fun p => ∃ v, RunFile run v p := by
  refine OnceIn.mono (.seq_cons (.when h1) (.seq_cons (.when h2) (.seq_cons (.when h3) (.seq_cons (.when h4)
    (.seq_nil (S := fun _ => False)) fun p _ h => h) ?_) ?_) ?_) ?_
  · rintro p h ((h' | h' | h') | h')
    · cases h.only hn h'
    · cases h.only hn h'
    · exact h'
    · exact h'
  · rintro p h (h' | (h' | h' | h') | h')
    · cases h.only hn h'
    · cases h.only hn h'
    · cases h.only hn h'
    · exact h'
    · exact h'
  · rintro p h (h' | h' | (h' | h' | h') | h')
    · cases h.only hn h'
    · cases h.only hn h'
    · cases h.only hn h'
    · cases h.only hn h'
    · exact h'
    · exact h'
  · rintro p (h | h | h | (h | h | h) | h)
    · exact ⟨_, h⟩
    · exact ⟨_, h⟩
    · exact ⟨_, h⟩
    · exact ⟨_, h⟩
    · exact ⟨_, h⟩
    · exact h.elim
    · exact h.elim

theorem dwd_steps_nodup (m : FcModel) : (m.forecastSteps.map RunStep.nr).Nodup := by
  unfold FcModel.forecastSteps
  rw [List.map_map]
  exact (nodup_rangeIncl _ _).map fun a b e => e

theorem once_dwd (m : Libm) (w : World) (dirs : Text → Bool) (vars : List Text) (filter : List Nat) {run : Run}
    (hn : '/' ∉ run.name) : OnceIn (Dwd.renderRun m w dirs vars filter run) fun p => ∃ v, RunFile run v p := by
  have hs := dwd_steps_nodup run.model
  refine once_parts hn ?_ ?_ ?_ (.need fun hhl _ => once_pair hn ?_ ?_)
  · refine .need fun totPrec _ => once_steps m hn dirs hs filter fun s l h => ?_
    unfold cloudPrecipLayers at h
    obtain ⟨_, _, h⟩ := bind_ok' h
    obtain ⟨_, _, h⟩ := bind_ok' h
    cases h; rfl
  · refine once_steps m hn dirs hs filter fun s l h => ?_
    unfold windLayers at h
    obtain ⟨_, _, h⟩ := bind_ok' h
    cases h; rfl
  · refine once_steps m hn dirs hs filter fun s l h => ?_
    unfold tempLayers at h
    obtain ⟨_, _, h⟩ := bind_ok' h
    cases h; rfl
  · refine once_steps m hn dirs hs filter fun s l h => ?_
    unfold verticalCloudLayers at h
    obtain ⟨_, _, h⟩ := bind_ok' h
    obtain ⟨_, _, h⟩ := bind_ok' h
    cases h; rfl
  · refine once_steps m hn dirs hs filter fun s l h => ?_
    unfold verticalWindLayers at h
    obtain ⟨_, _, h⟩ := bind_ok' h
    obtain ⟨_, _, h⟩ := bind_ok' h
    obtain ⟨_, _, h⟩ := bind_ok' h
    cases h; rfl

theorem swiss_steps_nodup {s : Swiss.Service} {t : Instant} {x : Swiss.Variable} {skip : Bool} {steps : List RunStep}
    (h : Swiss.steps s t x skip = .ok steps) : (steps.map RunStep.nr).Nodup := by
  unfold Swiss.steps at h
  obtain ⟨_, _, h⟩ := bind_ok' h
  obtain ⟨files, _, h⟩ := bind_ok' h
  cases h
  unfold SwissSearch.runSteps
  rw [List.map_map]
  have e : (RunStep.nr ∘ fun p : SwissSearch.Step × Nat => (⟨p.2, p.1.href⟩ : RunStep)) = Prod.snd := rfl
  rw [e]
  have hz : (files.zipIdx.map Prod.snd).Nodup := by
    rw [List.zipIdx_map_snd]
    exact List.nodup_range'
  exact ((List.filter_sublist (l := files.zipIdx)).map Prod.snd).nodup hz

theorem once_swiss (m : Libm) (w : World) (s : Swiss.Service) (cal : Swiss.Calendar) (dirs : Text → Bool)
    (vars : List Text) (filter : List Nat) (grid : UnstructuredGrid) (vertUrl : Text) (t : Instant) :
    OnceIn (Swiss.renderRun m w s cal dirs vars filter grid vertUrl t)
      fun p => ∃ run, Swiss.forecastRun cal t = .ok run ∧ ∃ v, RunFile run v p := by
  by_cases hr : ∃ run, Swiss.forecastRun cal t = .ok run
  · obtain ⟨run, hr⟩ := hr
    have hn := forecastRun_no_slash hr
    have same : ∀ run', Swiss.forecastRun cal t = .ok run' → run' = run := fun run' h => Res.ok.inj (h.symm.trans hr)
    refine (once_parts hn ?_ ?_ ?_ (.need fun hhl _ => once_pair hn ?_ ?_)).mono fun p h => ⟨run, hr, h⟩
    · refine .need fun run' h' => .need fun clct hs => .need fun _ _ => .need fun _ _ => ?_
      obtain rfl := same run' h'
      refine once_steps m hn dirs (swiss_steps_nodup hs) filter fun s l h => ?_
      obtain ⟨_, _, h⟩ := bind_ok' h
      obtain ⟨_, _, h⟩ := bind_ok' h
      cases h; rfl
    · refine .need fun run' h' => .need fun clct hs => .need fun _ _ => .need fun _ _ => ?_
      obtain rfl := same run' h'
      refine once_steps m hn dirs (swiss_steps_nodup hs) filter fun s l h => ?_
      obtain ⟨_, _, h⟩ := bind_ok' h
      cases h; rfl
    · refine .need fun run' h' => .need fun clct hs => ?_
      obtain rfl := same run' h'
      refine once_steps m hn dirs (swiss_steps_nodup hs) filter fun s l h => ?_
      obtain ⟨_, _, h⟩ := bind_ok' h
      cases h; rfl
    · refine .need fun run' h' => .need fun clct hs => ?_
      obtain rfl := same run' h'
      refine once_steps m hn dirs (swiss_steps_nodup hs) filter fun s l h => ?_
      obtain ⟨_, _, h⟩ := bind_ok' h
      cases h; rfl
    · refine .need fun run' h' => .need fun clct hs => .need fun _ _ => ?_
      obtain rfl := same run' h'
      refine once_steps m hn dirs (swiss_steps_nodup hs) filter fun s l h => ?_
      obtain ⟨_, _, h⟩ := bind_ok' h
      cases h; rfl
  · have part : ∀ {S : Text → Prop} {f : Run → Effect}, OnceIn (Effect.need (Swiss.forecastRun cal t) f) S :=
      .need fun run h => absurd ⟨run, h⟩ hr
    refine OnceIn.mono (S := fun p => False ∨ False ∨ False ∨ (False ∨ False ∨ False) ∨ False)
      (.seq_cons (.when part) (.seq_cons (.when part) (.seq_cons (.when part)
        (.seq_cons (.when (.need fun hhl _ => .seq_cons (.when part) (.seq_cons (.when part) .seq_nil ?_) ?_))
        .seq_nil ?_) ?_) ?_) ?_) (fun p h => by simp at h)
    all_goals
      intro p h h'
      simp at h h'

/-! ## A network that is not reliable -/

theorem OnceIn.needs {α : Type} {r : May α} {f : α → Effect} {S : Text → Prop}
    (h : ∀ a, r (.ok a) → OnceIn (f a) S) : OnceIn (Effect.needs r f) S := by
  rintro tr o (⟨_, hr⟩ | ⟨_, hr⟩ | ⟨a, ha, hf⟩)
  · exact OnceIn.nothing tr o hr
  · exact OnceIn.nothing tr o hr
  · exact h a ha tr o hf

theorem may_bind {α β : Type} {x : May α} {f : α → May β} {b : β} (h : (x >>= f) (.ok b)) :
    ∃ a, x (.ok a) ∧ f a (.ok b) := by
  rcases h with ⟨_, h⟩ | ⟨_, h⟩ | h
  · cases h
  · cases h
  · exact h

theorem may_pure {α : Type} {a b : α} (h : (pure a : May α) (.ok b)) : b = a := Res.ok.inj h

theorem once_steps_net (m : Libm) {run : Run} (hn : '/' ∉ run.name) (dirs : Text → Bool) {steps : List RunStep}
    (hs : (steps.map RunStep.nr).Nodup) (filter : List Nat) {read : RunStep → May Layers} {v : LayerType}
    (hv : ∀ s l, read s (.ok l) → variableOf l = v) :
    OnceIn (renderStepsNet m run dirs steps filter read) (RunFile run v) := by
  have key := OnceIn.parTry (work := runStepNet m run dirs filter read) (items := steps)
    (S := fun s => StepFile run v s.nr) (fun s _ => ?_) ?_
  · refine key.mono ?_
    rintro p ⟨s, _, h⟩
    exact ⟨s.nr, h⟩
  · intro tr o h
    unfold runStepNet at h
    split at h
    · refine OnceIn.needs (fun l hl => ?_) tr o h
      exact hv s l hl ▸ once_job m hn dirs s.nr l
    · exact OnceIn.nothing tr o h
  · rintro i j hi hj hij p ⟨out, _, e⟩ ⟨out', _, e'⟩
    have h := (C54_same_run run hn (e.symm.trans e')).1
    refine hij ((List.Nodup.getElem_inj_iff hs (i := i) (j := j) (hi := by simpa using hi) (hj := by simpa using hj)).mp ?_)
    simpa using h

theorem net_variable {w : World} {net : Net} : (∀ run cs tp s l, net.dwdCloudPrecip w run cs tp s (.ok l) → variableOf l = .cloudPrecip) ∧
    (∀ run s l, net.dwdWind w run s (.ok l) → variableOf l = .wind10m) ∧
    (∀ run s l, net.dwdTemp w run s (.ok l) → variableOf l = .temp2m) ∧
    (∀ run lv hhl s l, net.dwdVerticalCloud w run lv hhl s (.ok l) → variableOf l = .verticalCloud) ∧
    (∀ run lv hhl s l, net.dwdVerticalWind w run lv hhl s (.ok l) → variableOf l = .verticalWind) ∧
    (∀ g a b c s l, net.swissCloudPrecip w g a b c s (.ok l) → variableOf l = .cloudPrecip) ∧
    (∀ g a b c s l, net.swissWind w g a b c s (.ok l) → variableOf l = .wind10m) ∧
    (∀ g a s l, net.swissTemp w g a s (.ok l) → variableOf l = .temp2m) ∧
    (∀ g hhl a s l, net.swissVerticalCloud w g hhl a s (.ok l) → variableOf l = .verticalCloud) ∧
    (∀ g hhl a b s l, net.swissVerticalWind w g hhl a b s (.ok l) → variableOf l = .verticalWind) := by
  refine ⟨?_, ?_, ?_, ?_, ?_, ?_, ?_, ?_, ?_, ?_⟩
  all_goals
    intros
    rename_i h
    repeat first
      | (obtain rfl := may_pure h; rfl)
      | (obtain ⟨_, _, h'⟩ := may_bind h; clear h; rename' h' => h; try dsimp only at h)

theorem once_dwd_net (net : Net) (m : Libm) (w : World) (dirs : Text → Bool) (vars : List Text) (filter : List Nat) {run : Run}
    (hn : '/' ∉ run.name) : OnceIn (Dwd.renderRunNet net m w dirs vars filter run) fun p => ∃ v, RunFile run v p := by
  have hs := dwd_steps_nodup run.model
  obtain ⟨k1, k2, k3, k4, k5, -⟩ := net_variable (w := w) (net := net)
  refine once_parts hn ?_ ?_ ?_ (.needs fun hhl _ => once_pair hn ?_ ?_)
  · exact .need fun totPrec _ => once_steps_net m hn dirs hs filter fun s l => k1 _ _ _ s l
  · exact once_steps_net m hn dirs hs filter fun s l => k2 _ s l
  · exact once_steps_net m hn dirs hs filter fun s l => k3 _ s l
  · exact once_steps_net m hn dirs hs filter fun s l => k4 _ _ _ s l
  · exact once_steps_net m hn dirs hs filter fun s l => k5 _ _ _ s l

theorem once_swiss_net (net : Net) (m : Libm) (w : World) (s : Swiss.Service) (cal : Swiss.Calendar) (dirs : Text → Bool)
    (vars : List Text) (filter : List Nat) (grid : UnstructuredGrid) (vertUrl : Text) (t : Instant) :
    OnceIn (Swiss.renderRunNet net m w s cal dirs vars filter grid vertUrl t) fun _ => True := by
  obtain ⟨-, -, -, -, -, k1, k2, k3, k4, k5⟩ := net_variable (w := w) (net := net)
  by_cases hr : ∃ run, Swiss.forecastRun cal t = .ok run
  · obtain ⟨run, hr⟩ := hr
    have hn := forecastRun_no_slash hr
    have same : ∀ run', Swiss.forecastRun cal t = .ok run' → run' = run := fun run' h => Res.ok.inj (h.symm.trans hr)
    refine (once_parts hn ?_ ?_ ?_ (.needs fun hhl _ => once_pair hn ?_ ?_)).mono fun p h => trivial
    · refine .need fun run' h' => .need fun clct hs => .need fun _ _ => .need fun _ _ => ?_
      obtain rfl := same run' h'
      exact once_steps_net m hn dirs (swiss_steps_nodup hs) filter fun s l => k1 _ _ _ _ s l
    · refine .need fun run' h' => .need fun clct hs => .need fun _ _ => .need fun _ _ => ?_
      obtain rfl := same run' h'
      exact once_steps_net m hn dirs (swiss_steps_nodup hs) filter fun s l => k2 _ _ _ _ s l
    · refine .need fun run' h' => .need fun clct hs => ?_
      obtain rfl := same run' h'
      exact once_steps_net m hn dirs (swiss_steps_nodup hs) filter fun s l => k3 _ _ s l
    · refine .need fun run' h' => .need fun clct hs => ?_
      obtain rfl := same run' h'
      exact once_steps_net m hn dirs (swiss_steps_nodup hs) filter fun s l => k4 _ _ _ s l
    · refine .need fun run' h' => .need fun clct hs => .need fun _ _ => ?_
      obtain rfl := same run' h'
      exact once_steps_net m hn dirs (swiss_steps_nodup hs) filter fun s l => k5 _ _ _ _ s l
  · have part : ∀ {S : Text → Prop} {f : Run → Effect}, OnceIn (Effect.need (Swiss.forecastRun cal t) f) S :=
      .need fun run h => absurd ⟨run, h⟩ hr
    refine OnceIn.mono (S := fun p => False ∨ False ∨ False ∨ (False ∨ False ∨ False) ∨ False)
      (.seq_cons (.when part) (.seq_cons (.when part) (.seq_cons (.when part)
        (.seq_cons (.when (.needs fun hhl _ => .seq_cons (.when part) (.seq_cons (.when part) .seq_nil ?_) ?_))
        .seq_nil ?_) ?_) ?_) ?_) (fun p h => by simp at h)
    all_goals
      intro p h h'
      simp at h h'

/-! ## The claim -/

/-- C177: whatever happens, in whatever order the steps and tiles are made, and however the call ends, no file is written
twice. -/
theorem C177_once (e : Environment) (model : Text) (vars : List Text) (filter : List Nat) (tr : List Write) (o : Outcome)
    (h : mainEffect e model vars filter tr o) : (tr.map Write.path).Nodup := by
  have key : ∀ {dwd : FcModel}, IsDwd dwd → OnceIn (Dwd.renderLatest e.libm e.world e.dirs e.today e.now e.available dwd
      vars filter) fun _ => True := fun hd =>
    .need fun run hr => (once_dwd e.libm e.world e.dirs vars filter (findLatestRun_no_slash hd hr)).mono fun _ _ => trivial
  unfold mainEffect at h
  split at h
  · have hs : OnceIn (Swiss.renderLatest e.libm e.world e.service e.calendar e.dirs vars filter) fun _ => True :=
      .need fun _ _ => .need fun _ _ => .need fun _ _ => .need fun _ _ => .need fun _ _ => .need fun _ _ =>
        (once_swiss _ _ _ _ _ _ _ _ _ _).mono fun _ _ => trivial
    exact (hs tr o h).1
  · split at h
    · exact (key (.inl rfl) tr o h).1
    · split at h
      · exact (key (.inr rfl) tr o h).1
      · rw [h.1]; exact List.nodup_nil

/-- C177: that is so too if requests are answered in any way, the same request at different times differently. -/
theorem C177_network (net : Net) (e : Environment) (model : Text) (vars : List Text) (filter : List Nat) (tr : List Write)
    (o : Outcome) (h : mainNet net e model vars filter tr o) : (tr.map Write.path).Nodup := by
  have key : ∀ {dwd : FcModel}, IsDwd dwd → OnceIn (Effect.need (Dwd.findLatestRun dwd e.today e.now e.available)
      (Dwd.renderRunNet net e.libm e.world e.dirs vars filter)) fun _ => True := fun hd =>
    .need fun run hr => (once_dwd_net net e.libm e.world e.dirs vars filter (findLatestRun_no_slash hd hr)).mono fun _ _ => trivial
  unfold mainNet at h
  split at h
  · refine (OnceIn.need (S := fun _ => True) (fun _ _ => .need fun _ _ => .needs fun _ _ => .need fun _ _ => .need fun _ _ =>
      .need fun _ _ => once_swiss_net _ _ _ _ _ _ _ _ _ _ _) tr o h).1
  · split at h
    · exact (key (.inl rfl) tr o h).1
    · split at h
      · exact (key (.inr rfl) tr o h).1
      · rw [h.1]; exact List.nodup_nil

/-- C177: a file that has been written is not touched again: at every later moment of the call, and after it, it has the
content it was given. -/
theorem C177_kept (e : Environment) (model : Text) (vars : List Text) (filter : List Nat) (o : Outcome) (sofar : List Write)
    (x : Write) (later rest : List Write) (h : mainEffect e model vars filter (sofar ++ x :: (later ++ rest)) o)
    (before : Tree) : (∀ y ∈ sofar ++ later ++ rest, y.path ≠ x.path) ∧
    before.write (sofar ++ x :: later) x.path = some x.content := by
  have hn := C177_once e model vars filter _ o h
  have hp : (x :: (sofar ++ (later ++ rest))).map Write.path |>.Nodup :=
    ((List.perm_middle (l₁ := sofar) (a := x) (l₂ := later ++ rest)).map Write.path).nodup_iff.mp hn
  rw [List.map_cons, List.nodup_cons] at hp
  have hne : ∀ y ∈ sofar ++ later ++ rest, y.path ≠ x.path := fun y hy e =>
    hp.1 (e ▸ List.mem_map.mpr ⟨y, by simpa [List.append_assoc] using hy, rfl⟩)
  refine ⟨hne, (Tree.write_eq _ _ _).1 x.content ⟨x, by simp, rfl⟩ fun y hy e => ?_⟩
  rcases List.mem_append.mp hy with hy | hy
  · exact absurd e (hne y (by simp [hy]))
  · rcases List.mem_cons.mp hy with rfl | hy
    · rfl
    · exact absurd e (hne y (by simp [hy]))

/-- C177: a successful call writes as many times as there are files to make. -/
theorem C177_count (e : Environment) (model : Text) (vars : List Text) (filter : List Nat) (tr : List Write)
    (h : mainEffect e model vars filter tr .done) (files : List Text) (hf : files.Nodup)
    (ha : ∀ p, p ∈ files ↔ ∃ c, MainExpected e model vars filter p c) : tr.length = files.length := by
  obtain ⟨h1, h2⟩ := C87_main e model vars filter tr
  rw [← List.length_map (f := Write.path)]
  refine ((List.perm_ext_iff_of_nodup (C177_once e model vars filter tr _ h) hf).mpr fun p => ?_).length_eq
  rw [ha, List.mem_map]
  constructor
  · rintro ⟨x, hx, rfl⟩
    exact ⟨x.content, h1 _ h x hx⟩
  · rintro ⟨c, hc⟩
    exact ⟨⟨p, c⟩, h2 h ⟨p, c⟩ hc, rfl⟩

/-- C177: two successful calls that find the same write equally often. -/
theorem C177_same_number (e : Environment) (model : Text) (vars : List Text) (filter : List Nat) (tr tr' : List Write)
    (h : mainEffect e model vars filter tr .done) (h' : mainEffect e model vars filter tr' .done) :
    tr.Perm tr' := by
  obtain ⟨a1, a2⟩ := C87_main e model vars filter tr
  obtain ⟨b1, b2⟩ := C87_main e model vars filter tr'
  refine (List.perm_ext_iff_of_nodup (C177_once e model vars filter tr _ h).of_map
    (C177_once e model vars filter tr' _ h').of_map).mpr fun x => ⟨fun hx => b2 h' x (a1 _ h x hx),
      fun hx => a2 h x (b1 _ h' x hx)⟩

/-- The premises of C177: a call for all charts of icon-eu that succeeds and writes files, among them the weather file of
step 4, which is written at one moment and by no other write. -/
example (service : Swiss.Service) (cal : Swiss.Calendar) (dirs : Text → Bool) : ∃ (e : Environment) (tr : List Write),
    mainEffect e "icon-eu".toList [] [] tr .done ∧ (tr.map Write.path).Nodup ∧
    ∃ (sofar later : List Write) (bytes : List UInt8), bytes ≠ [] ∧
      tr = sofar ++ ⟨binPath rainRun 4 .weather, .bytes bytes⟩ :: later ∧
      ∀ y ∈ sofar ++ later, y.path ≠ binPath rainRun 4 .weather := by
  obtain ⟨e, -, -, -, ⟨tr, ht⟩, -, bytes, hb, hx⟩ := disk_demo service cal dirs
  have hm := (C87_main e _ _ _ tr).2 ht ⟨binPath rainRun 4 .weather, .bytes bytes⟩ hx
  obtain ⟨sofar, later, rfl⟩ := List.append_of_mem hm
  refine ⟨e, _, ht, C177_once e _ _ _ _ _ ht, sofar, later, bytes, hb, rfl, ?_⟩
  have h := (C177_kept e _ _ _ _ sofar _ later [] (by simpa using ht) fun _ => none).1
  simpa using h

end Verif.Props
