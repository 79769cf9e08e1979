import Verif.Props.SameData

/-!
# C191 for MeteoSwiss
-/

namespace Verif.Props

open Verif MapTileRenderer
open Verif.Swiss (Service Calendar forecastRun)
open Verif.Spec (AccurateRow)
open Verif.Spec.Grib2 (Msg)

/-- If both give a result, the results are so related. -/
def SameIfBoth {α β : Type} (p : α → β → Prop) (r : Res α) (r' : Res β) : Prop := ∀ a b, r = .ok a → r' = .ok b → p a b

theorem SameIfBoth.bind {α β γ δ : Type} {p : α → β → Prop} {q : γ → δ → Prop} {r : Res α} {r' : Res β} {f : α → Res γ} {g : β → Res δ}
    (h : SameIfBoth p r r') (hf : ∀ a b, p a b → SameIfBoth q (f a) (g b)) : SameIfBoth q (r >>= f) (r' >>= g) := by
  intro c d hc hd
  obtain ⟨a, h1, h2⟩ := bind_ok' hc
  obtain ⟨b, h3, h4⟩ := bind_ok' hd
  exact hf a b (h a b h1 h3) c d h2 h4

theorem SameIfBoth.refl {α : Type} (r : Res α) : SameIfBoth Eq r r := fun _ _ h h' => Res.ok.inj (h.symm.trans h')

theorem SameIfBoth.of_eq {α : Type} {r r' : Res α} (h : r = r') : SameIfBoth Eq r r' := h ▸ SameIfBoth.refl r

theorem SameIfBoth.bindEq {α γ : Type} {r r' : Res α} {f g : α → Res γ} (h : SameIfBoth Eq r r') (hf : ∀ a, SameIfBoth Eq (f a) (g a)) :
    SameIfBoth Eq (r >>= f) (r' >>= g) := h.bind fun a _ e => e ▸ hf a

/-- The file of a quantity at hour `n` of one run has the same data as the file at hour `n'` of the other one. -/
def SameHour (w : World) (s : Service) (t : Instant) (w' : World) (s' : Service) (t' : Instant) (x : Swiss.Variable) (n n' : Nat) :
    Prop :=
  ∀ skip steps steps' a a', Swiss.steps s t x skip = .ok steps → Swiss.steps s' t' x skip = .ok steps' → a ∈ steps → a' ∈ steps' →
    a.nr = n → a'.nr = n' → w.stream a.url = w'.stream a'.url

/-- The quantities and hours from which a variable is drawn. -/
def hoursFor : LayerType → Nat → List (Swiss.Variable × Nat)
  | .cloudPrecip, n => [(.clct, n), (.totPrec, n - 1), (.totPrec, n), (.ceiling, n)]
  | .wind10m, n => [(.u10m, n), (.v10m, n), (.vmax10m, n)]
  | .temp2m, n => [(.t2m, n)]
  | .verticalCloud, n => [(.clc, n)]
  | .verticalWind, n => [(.u, n), (.v, n)]
  | .weather, _ => []

theorem getStep_ok {steps : List RunStep} {n : Nat} {a : RunStep} (h : getStepByNr steps n = .ok a) : a ∈ steps ∧ a.nr = n := by
  unfold getStepByNr at h
  cases hf : steps.find? fun s => s.nr == n with
  | none => rw [hf] at h; cases h
  | some b =>
    rw [hf] at h
    cases h
    exact ⟨List.mem_of_find?_eq_some hf, by simpa using List.find?_some hf⟩

theorem unwrapResult_ok {α : Type} {r : Res α} {a : α} (h : Res.unwrapResult r = .ok a) : r = .ok a := by
  cases r <;> cases h
  rfl

section

variable {w w' : World} {s s' : Service} {t t' : Instant}

/-- Files of a step on both sides. -/
abbrev SameStream (w w' : World) (a a' : RunStep) : Prop := w.stream a.url = w'.stream a'.url

theorem alike_step {x : Swiss.Variable} {n n' : Nat} (h : SameHour w s t w' s' t' x n n') {skip : Bool} {steps steps' : List RunStep}
    (e : Swiss.steps s t x skip = .ok steps) (e' : Swiss.steps s' t' x skip = .ok steps') :
    SameIfBoth (SameStream w w') (getStepByNr steps n) (getStepByNr steps' n') := fun a a' h1 h2 =>
  h skip steps steps' a a' e e' (getStep_ok h1).1 (getStep_ok h2).1 (getStep_ok h1).2 (getStep_ok h2).2

theorem alike_unwrap {α β : Type} {p : α → β → Prop} {r : Res α} {r' : Res β} (h : SameIfBoth p r r') :
    SameIfBoth p (Res.unwrapResult r) (Res.unwrapResult r') := fun a b h1 h2 => h a b (unwrapResult_ok h1) (unwrapResult_ok h2)

theorem readGrid_same {grid : UnstructuredGrid} {f : Fl → Fl} {a a' : RunStep} (h : SameStream w w' a a') :
    Swiss.readGrid w grid f a = Swiss.readGrid w' grid f a' := by
  unfold Swiss.readGrid World.readUnstructured World.readSingle
  rw [h]

theorem readMulti_same {T : Type} {grid : UnstructuredGrid} {missing : T} {f : Fl → T} {url url' : Text} {range : Option (Nat × Nat)}
    (h : w.stream url = w'.stream url') :
    w.readMultiUnstructured url missing f grid range = w'.readMultiUnstructured url' missing f grid range := by
  unfold World.readMultiUnstructured World.readMulti
  rw [h]

theorem alike_steps (x : Swiss.Variable) (skip : Bool) : SameIfBoth (fun l l' => Swiss.steps s t x skip = .ok l ∧
    Swiss.steps s' t' x skip = .ok l') (Swiss.steps s t x skip) (Swiss.steps s' t' x skip) := fun _ _ h h' => ⟨h, h'⟩

theorem swissLayers_same {grid : UnstructuredGrid} {vertUrl vertUrl' : Text} {v : LayerType} {st st' : RunStep}
    (hh : v = .verticalCloud ∨ v = .verticalWind → w.stream vertUrl = w'.stream vertUrl')
    (h : ∀ x k, (x, k) ∈ hoursFor v st.nr → SameHour w s t w' s' t' x k (k + st'.nr - st.nr)) :
    SameIfBoth Eq (swissLayers w s grid vertUrl t v st) (swissLayers w' s' grid vertUrl' t' v st') := by
  have e0 : st.nr + st'.nr - st.nr = st'.nr := by omega
  have at0 : ∀ x, (x, st.nr) ∈ hoursFor v st.nr → SameHour w s t w' s' t' x st.nr st'.nr := fun x hx => by
    have := h x _ hx
    rwa [e0] at this
  cases v with
  | cloudPrecip =>
    have c := at0 .clct (by simp [hoursFor])
    have p := at0 .totPrec (by simp [hoursFor])
    have e := at0 .ceiling (by simp [hoursFor])
    have p0 := h .totPrec (st.nr - 1) (by simp [hoursFor])
    simp only [swissLayers]
    refine (alike_steps .clct true).bind fun l1 l1' q1 => ?_
    refine (alike_steps .totPrec false).bind fun l2 l2' q2 => ?_
    refine (alike_steps .ceiling false).bind fun l3 l3' q3 => ?_
    refine SameIfBoth.bindEq ?_ fun L => SameIfBoth.bindEq ?_ fun W => SameIfBoth.refl _
    · unfold Swiss.readCloudPrecip
      have k : SameIfBoth (fun a b => SameStream w w' a.1 b.1 ∧ SameStream w w' a.2.1 b.2.1 ∧ SameStream w w' a.2.2 b.2.2)
          (cloudPrecipSteps st l1 l2) (cloudPrecipSteps st' l1' l2') := by
        unfold cloudPrecipSteps
        refine (alike_unwrap (alike_step c q1.1 q1.2)).bind fun a a' ha => ?_
        split
        · intro _ _ hb; cases hb
        · split
          · intro _ _ _ hb; cases hb
          · rename_i n1 n2
            have e1 : st.nr - 1 + st'.nr - st.nr = st'.nr - 1 := by omega
            rw [e1] at p0
            refine (alike_unwrap (alike_step p0 q2.1 q2.2)).bind fun b b' hb => ?_
            refine (alike_unwrap (alike_step p q2.1 q2.2)).bind fun d d' hd => ?_
            rintro _ _ ⟨⟩ ⟨⟩
            exact ⟨ha, hb, hd⟩
      refine k.bind fun a b hab => ?_
      obtain ⟨a1, a2, a3⟩ := a
      obtain ⟨b1, b2, b3⟩ := b
      obtain ⟨h1, h2, h3⟩ := hab
      dsimp only at h1 h2 h3 ⊢
      rw [readGrid_same h1, readGrid_same h2, readGrid_same h3]
      exact SameIfBoth.refl _
    · unfold Swiss.readWeather
      refine (alike_unwrap (alike_step c q1.1 q1.2)).bind fun a a' ha => ?_
      refine (alike_unwrap (alike_step e q3.1 q3.2)).bind fun b b' hb => ?_
      rw [readGrid_same ha, readGrid_same hb]
      exact SameIfBoth.refl _
  | wind10m =>
    have u := at0 .u10m (by simp [hoursFor])
    have v := at0 .v10m (by simp [hoursFor])
    have g := at0 .vmax10m (by simp [hoursFor])
    simp only [swissLayers]
    refine (alike_steps .u10m false).bind fun l1 l1' q1 => ?_
    refine (alike_steps .v10m false).bind fun l2 l2' q2 => ?_
    refine (alike_steps .vmax10m false).bind fun l3 l3' q3 => ?_
    refine SameIfBoth.bindEq ?_ fun L => SameIfBoth.refl _
    unfold Swiss.readWind
    refine (alike_step u q1.1 q1.2).bind fun a a' ha => ?_
    refine (alike_step v q2.1 q2.2).bind fun b b' hb => ?_
    refine (alike_step g q3.1 q3.2).bind fun c c' hc => ?_
    rw [readGrid_same ha, readGrid_same hb, readGrid_same hc]
    exact SameIfBoth.refl _
  | temp2m =>
    have u := at0 .t2m (by simp [hoursFor])
    simp only [swissLayers]
    refine (alike_steps .t2m false).bind fun l1 l1' q1 => ?_
    refine SameIfBoth.bindEq ?_ fun L => SameIfBoth.refl _
    unfold Swiss.readTemp
    refine (alike_unwrap (alike_step u q1.1 q1.2)).bind fun a a' ha => ?_
    rw [readGrid_same ha]
    exact SameIfBoth.refl _
  | verticalCloud =>
    have u := at0 .clc (by simp [hoursFor])
    simp only [swissLayers]
    refine SameIfBoth.bindEq (.of_eq (readMulti_same (hh (.inl rfl)))) fun hhl => ?_
    refine (alike_steps .clc false).bind fun l1 l1' q1 => ?_
    refine SameIfBoth.bindEq ?_ fun L => SameIfBoth.refl _
    unfold Swiss.readVerticalCloud
    refine (alike_unwrap (alike_step u q1.1 q1.2)).bind fun a a' ha => ?_
    rw [readMulti_same ha]
    exact SameIfBoth.refl _
  | verticalWind =>
    have u := at0 .u (by simp [hoursFor])
    have v := at0 .v (by simp [hoursFor])
    simp only [swissLayers]
    refine SameIfBoth.bindEq (.of_eq (readMulti_same (hh (.inr rfl)))) fun hhl => ?_
    refine (alike_steps .u false).bind fun l1 l1' q1 => ?_
    refine (alike_steps .v false).bind fun l2 l2' q2 => ?_
    refine SameIfBoth.bindEq ?_ fun L => SameIfBoth.refl _
    unfold Swiss.readVerticalWind
    refine (alike_unwrap (alike_step u q1.1 q1.2)).bind fun a a' ha => ?_
    refine (alike_unwrap (alike_step v q2.1 q2.2)).bind fun b b' hb => ?_
    rw [readMulti_same ha, readMulti_same hb]
    exact SameIfBoth.refl _
  | weather => intro _ _ h; cases h

end

theorem swiss_forward {m : Libm} {w w' : World} {s s' : Service} {cal cal' : Calendar} {dirs dirs' : Text → Bool}
    {vars vars' : List Text} {filter filter' : List Nat} {grid : UnstructuredGrid} {vertUrl vertUrl' : Text} {t t' : Instant}
    {tr tr' : List Write} (h : Swiss.renderRun m w s cal dirs vars filter grid vertUrl t tr .done)
    (h' : Swiss.renderRun m w' s' cal' dirs' vars' filter' grid vertUrl' t' tr' .done) {run run' : Run}
    (hr : forecastRun cal t = .ok run) (hr' : forecastRun cal' t' = .ok run') {out : Output}
    (hv' : ChosenVar vars' out.variable) {steps steps' : List RunStep}
    (hs : swissSteps s t out.variable = .ok steps) (hs' : swissSteps s' t' out.variable = .ok steps') {st st' : RunStep}
    (hst : st ∈ steps) (hst' : st' ∈ steps') (hc' : Chosen filter' st') {l : Layers}
    (hl : swissLayers w s grid vertUrl t out.variable st = .ok l) (hl' : swissLayers w' s' grid vertUrl' t' out.variable st' = .ok l)
    {c : Content} (hx : ⟨out.path run st.nr, c⟩ ∈ tr) : ⟨out.path run' st'.nr, c⟩ ∈ tr' := by
  have ch1 : ∀ {cal : Calendar} {t : Instant} {run : Run}, forecastRun cal t = .ok run → run.model = .iconCh1 := by
    intro cal t run h
    unfold forecastRun at h
    obtain ⟨_, _, h2⟩ := bind_ok' h
    cases h2
    rfl
  obtain ⟨out', run1, steps1, -, e1, e2, st1, hs1, -, hp, l1, hl1, hf⟩ :=
    C87_swiss_only m w s cal dirs vars filter grid vertUrl t tr _ h _ hx
  obtain rfl := Res.ok.inj (hr.symm.trans e1)
  obtain ⟨n1, n2⟩ := C54_same_run run (forecastRun_no_slash hr) hp
  subst n2
  obtain rfl := Res.ok.inj (hs.symm.trans e2)
  obtain rfl := swissSteps_numbered hs _ hst _ hs1 n1
  obtain rfl := Res.ok.inj (hl.symm.trans hl1)
  refine (writes_swiss m w' s' cal' dirs' vars' filter' grid vertUrl' t').all tr' h' _
    ⟨out.variable, hv', run', steps', hr', hs', st', hst', hc', l, hl', out, ?_, rfl⟩
  rw [ch1 hr']
  rwa [ch1 hr] at hf

/-- **C191, MeteoSwiss.** Two runs are rendered successfully, from any servers and for the same positions of the data points, and an hour of
one run has the same data as another hour (or the same) of the other run.  Then the files of the two hours are the same: what is written for
one of them at its place is written for the other one at its place. -/
theorem C191_swiss {m : Libm} {w w' : World} {s s' : Service} {cal cal' : Calendar} {dirs dirs' : Text → Bool}
    {vars vars' : List Text} {filter filter' : List Nat} {grid : UnstructuredGrid} {vertUrl vertUrl' : Text} {t t' : Instant}
    {tr tr' : List Write} (h : Swiss.renderRun m w s cal dirs vars filter grid vertUrl t tr .done)
    (h' : Swiss.renderRun m w' s' cal' dirs' vars' filter' grid vertUrl' t' tr' .done) {run run' : Run}
    (hr : forecastRun cal t = .ok run) (hr' : forecastRun cal' t' = .ok run') {out : Output}
    (hv : ChosenVar vars out.variable) (hv' : ChosenVar vars' out.variable) {steps steps' : List RunStep}
    (hs : swissSteps s t out.variable = .ok steps) (hs' : swissSteps s' t' out.variable = .ok steps') {st st' : RunStep}
    (hst : st ∈ steps) (hst' : st' ∈ steps') (hc : Chosen filter st) (hc' : Chosen filter' st')
    (hd : ∀ x k, (x, k) ∈ hoursFor out.variable st.nr → SameHour w s t w' s' t' x k (k + st'.nr - st.nr))
    (hh : out.variable = .verticalCloud ∨ out.variable = .verticalWind → w.stream vertUrl = w'.stream vertUrl') (c : Content) :
    ⟨out.path run st.nr, c⟩ ∈ tr ↔ ⟨out.path run' st'.nr, c⟩ ∈ tr' := by
  have hw : out.variable ≠ .weather := fun e => by rw [e] at hs; cases hs
  obtain ⟨_, l, -, hl, -⟩ := bin_of_swiss h hv hw hs hst hc
  obtain ⟨_, l', -, hl', -⟩ := bin_of_swiss h' hv' hw hs' hst' hc'
  obtain rfl := swissLayers_same hh hd l l' hl hl'
  exact ⟨swiss_forward h h' hr hr' hv' hs hs' hst hst' hc' hl hl', swiss_forward h' h hr' hr hv hs' hs hst' hst hc hl' hl⟩

attribute [local irreducible] mainEffect

theorem swissWorld_stream (f : Msg) (u u' : Text) : (swissWorld f).stream u = (swissWorld f).stream u' := by
  have e : ∀ v, (swissWorld f).stream v = .ok ((swissMsgs f).flatMap Spec.Grib2.encode) := fun v => by
    unfold World.stream swissWorld
    simp only [id, ite_self]
    split <;> rfl
  rw [e, e]

/-- The hypotheses can be met: a server that has the same data for both hours of a run.  The temperature tiles are then the same. -/
example (m : Libm) (hm : AccurateRow m) (dirs : Text → Bool) : ∃ tr,
    mainEffect (webEnv m warmMsg demoCatalogue dirs) "icon-ch1".toList [] [] tr .done ∧
    ∀ z c, ⟨(Output.tempTile z).path (runAt augustNoon) 0, c⟩ ∈ tr ↔ ⟨(Output.tempTile z).path (runAt augustNoon) 1, c⟩ ∈ tr := by
  have hk : warmMsg.product.known := trivial
  obtain ⟨tr, ht⟩ := demo_success (f := warmMsg) warmMsg_ok hk warmMsg_full m hm dirs [] []
  refine ⟨tr, ht, fun z c => ?_⟩
  have hmeets := demo_meets (f := warmMsg) warmMsg_ok hk m dirs
  have hsame : ∀ u u', (webEnv m warmMsg demoCatalogue dirs).world.stream u = (webEnv m warmMsg demoCatalogue dirs).world.stream u' :=
    swissWorld_stream warmMsg
  obtain ⟨steps, h1, h2⟩ := C112_steps (webOf demoCatalogue) demoCatalogue hmeets.searches hmeets.wellFormed .t2m augustNoon
    augustNoon_usual augustNoon_run 2 (by rw [demo_files]; exact List.Perm.swap 0 1 []) false
  have m0 : (⟨0, "a".toList⟩ : RunStep) ∈ steps := (h2 _ _).mpr ⟨nofun, demoItem augustNoon "2025-08-25T12:00:00Z".toList .t2m 0,
    by rw [demo_files]; simp, rfl, rfl⟩
  have m1 : (⟨1, "b".toList⟩ : RunStep) ∈ steps := (h2 _ _).mpr ⟨nofun, demoItem augustNoon "2025-08-25T12:00:00Z".toList .t2m 1,
    by rw [demo_files]; simp, rfl, rfl⟩
  generalize webEnv m warmMsg demoCatalogue dirs = E at ht hmeets hsame
  generalize "hor".toList = H at hmeets
  generalize "vert".toList = V at hmeets
  obtain ⟨grid, -, hrun⟩ := main_run hmeets ht
  exact C191_swiss hrun hrun (C109_run _ augustNoon_run) (C109_run _ augustNoon_run) (out := .tempTile z) (.inl rfl)
    (.inl rfl) h1 h1 m0 m1 (.inl rfl) (.inl rfl) (fun _ _ _ _ _ _ _ _ _ _ _ _ _ _ => hsame _ _) (fun _ => hsame _ _) c

end Verif.Props
