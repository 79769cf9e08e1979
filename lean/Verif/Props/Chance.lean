import Verif.Props.Isolation
import Verif.Props.Repeat

/-!
# C186: the same call under the same circumstances
-/

namespace Verif.Props

open Verif Dwd MapTileRenderer
open Verif.Spec (AccurateRow exists_accurateRow)

/-! ## Success does not depend on chance -/

/-- If an effect can succeed, it always does. -/
def Certain (e : Effect) : Prop := ∀ tr, e tr .done → ∀ tr' o, e tr' o → o = .done

theorem Certain.need {α : Type} {r : Res α} {f : α → Effect} (h : ∀ a, Certain (f a)) : Certain (Effect.need r f) := by
  cases r with
  | ok a => exact h a
  | err => rintro tr ⟨-, h⟩; cases h
  | panic => rintro tr ⟨-, h⟩; cases h

theorem Certain.when {c : Bool} {e : Effect} (h : Certain e) : Certain (Effect.when c e) := by
  cases c with
  | true => exact h
  | false => rintro tr - tr' o ⟨-, h⟩; exact h

theorem Certain.seq {es : List Effect} (h : ∀ e ∈ es, Certain e) : Certain (Seq es) := by
  induction es with
  | nil =>
    intro tr _ tr' o h
    exact (seq_nil_iff.mp h).2
  | cons e es ih =>
    intro tr ht tr' o h'
    rcases seq_cons_iff.mp ht with ⟨t1, t2, h1, h2, -⟩ | ⟨h1, -⟩
    · rcases seq_cons_iff.mp h' with ⟨s1, s2, -, h4, -⟩ | ⟨ho, h3⟩
      · exact ih (fun e he => h e (List.mem_cons_of_mem _ he)) t2 h2 s2 o h4
      · exact absurd (h e List.mem_cons_self t1 h1 tr' o h3) ho
    · exact absurd rfl h1

theorem certain_renderSteps (m : Libm) (run : Run) (dirs : Text → Bool) (steps : List RunStep) (filter : List Nat)
    (read : RunStep → Res Layers) : Certain (renderSteps m run dirs steps filter read) := fun tr h =>
  have s := succeeds_renderSteps m run dirs steps filter read
  s.always (s.only tr h)

theorem certain_dwd (m : Libm) (w : World) (dirs : Text → Bool) (vars : List Text) (filter : List Nat) (run : Run) :
    Certain (Dwd.renderRun m w dirs vars filter run) := by
  have s := succeeds_dwd m w dirs vars filter run
  exact fun tr h => s.always (s.only tr h)

theorem certain_swiss (m : Libm) (w : World) (s : Swiss.Service) (cal : Swiss.Calendar) (dirs : Text → Bool)
    (vars : List Text) (filter : List Nat) (grid : UnstructuredGrid) (url : Text) (t : Instant) :
    Certain (Swiss.renderRun m w s cal dirs vars filter grid url t) := by
  unfold Swiss.renderRun Swiss.renderCloudPrecip Swiss.renderWind Swiss.renderTemp Swiss.renderVerticalCloud
    Swiss.renderVerticalWind
  refine Certain.seq fun e he => ?_
  simp only [List.mem_cons, List.not_mem_nil, or_false] at he
  rcases he with rfl | rfl | rfl | rfl
  · exact .when (.need fun _ => .need fun _ => .need fun _ => .need fun _ => certain_renderSteps _ _ _ _ _ _)
  · exact .when (.need fun _ => .need fun _ => .need fun _ => .need fun _ => certain_renderSteps _ _ _ _ _ _)
  · exact .when (.need fun _ => .need fun _ => certain_renderSteps _ _ _ _ _ _)
  · refine .when (.need fun hhl => Certain.seq fun e he => ?_)
    simp only [List.mem_cons, List.not_mem_nil, or_false] at he
    rcases he with rfl | rfl
    · exact .when (.need fun _ => .need fun _ => certain_renderSteps _ _ _ _ _ _)
    · exact .when (.need fun _ => .need fun _ => .need fun _ => certain_renderSteps _ _ _ _ _ _)

theorem certain_main (e : Environment) (model : Text) (vars : List Text) (filter : List Nat) :
    Certain (mainEffect e model vars filter) := by
  unfold mainEffect
  split
  · exact .need fun _ => .need fun _ => .need fun _ => .need fun _ => .need fun _ => .need fun _ => certain_swiss _ _ _ _ _ _ _ _ _ _
  split
  · exact .need fun _ => certain_dwd _ _ _ _ _ _
  split
  · exact .need fun _ => certain_dwd _ _ _ _ _ _
  · rintro tr - tr' o ⟨-, h⟩; exact h

/-- C186, the part that holds: if one execution of a call succeeds, all do, and they write the same files. Whatever two
executions both write is the same, however they end. -/
theorem C186_success_partial (e : Environment) (model : Text) (vars : List Text) (filter : List Nat) (tr tr' : List Write)
    (o o' : Outcome) (h : mainEffect e model vars filter tr o) (h' : mainEffect e model vars filter tr' o') :
    (o = .done → o' = .done ∧ ∀ x, x ∈ tr ↔ x ∈ tr') ∧
    ∀ x ∈ tr, ∀ x' ∈ tr', x.path = x'.path → x.content = x'.content := by
  constructor
  · rintro rfl
    have ho : o' = .done := certain_main e model vars filter tr h tr' o' h'
    subst ho
    refine ⟨rfl, fun x => ⟨fun hx => ?_, fun hx => ?_⟩⟩
    · exact (C87_main e model vars filter tr').2 h' x ((C87_main e model vars filter tr).1 _ h x hx)
    · exact (C87_main e model vars filter tr).2 h x ((C87_main e model vars filter tr').1 _ h' x hx)
  · intro x hx x' hx' hp
    have e1 := (C87_main e model vars filter tr).1 o h x hx
    have e2 := (C87_main e model vars filter tr').1 o' h' x' hx'
    rw [← hp] at e2
    exact mainExpected_functional e1 e2

/-! ## What a call that fails leaves is a matter of chance -/

/-- When an item fails, any selection of the items that can be done may have been done. -/
theorem parTry_some {α β : Type} {work : α → List β → Outcome → Prop} {items : List α} {a : α} (ha : a ∈ items)
    (hf : work a [] .failed) (chosen : α → Prop) (hn : ¬ chosen a) (traces : Nat → List β)
    (h : ∀ i (hi : i < items.length), chosen items[i] → work items[i] (traces i) .done) :
    ∃ tr, ParTry work items tr .failed ∧ ∀ w, w ∈ tr ↔ ∃ i, ∃ hi : i < items.length, chosen items[i] ∧ w ∈ traces i := by
  classical
  obtain ⟨k, hk, rfl⟩ := List.mem_iff_getElem.mp ha
  let f : Nat → List β := fun i => if ∃ hi : i < items.length, chosen items[i] then traces i else []
  have hyes : ∀ i (hi : i < items.length), chosen items[i] → f i = traces i := fun i hi hc => if_pos ⟨hi, hc⟩
  have hno : ∀ i (hi : i < items.length), ¬ chosen items[i] → f i = [] := fun i hi hc => if_neg fun ⟨_, h⟩ => hc h
  have hf' : ∀ i (hi : i < items.length), (chosen items[i] → work items[i] (f i) .done) ∧ (¬ chosen items[i] → f i = []) :=
    fun i hi => ⟨fun hc => hyes i hi hc ▸ h i hi hc, hno i hi⟩
  have hlt : ∀ e ∈ (List.range items.length).flatMap fun j => (f j).map fun w => (j, w), e.1 < items.length := by
    intro e he
    obtain ⟨j, hj, he⟩ := List.mem_flatMap.mp he
    obtain ⟨w, _, rfl⟩ := List.mem_map.mp he
    exact List.mem_range.mp hj
  refine ⟨_, .mk ((List.range items.length).flatMap fun j => (f j).map fun w => (j, w))
    (fun i => if i = k then some .failed else if ∃ hi : i < items.length, chosen items[i] then some .done else none) .failed
    hlt ?_ ?_ ?_ ?_, ?_⟩
  · intro i hi oi ho
    rw [filter_tagged f _ i hi]
    by_cases hik : i = k
    · subst hik
      simp only [if_true, Option.some.injEq] at ho
      subst ho
      rw [(hf' i hi).2 hn]
      exact hf
    · simp only [if_neg hik] at ho
      by_cases hci : ∃ hi : i < items.length, chosen items[i]
      · rw [if_pos hci] at ho
        cases ho
        exact (hf' i hi).1 hci.2
      · rw [if_neg hci] at ho
        cases ho
  · intro i hi ho
    refine ⟨?_, by simp⟩
    have hci : ¬ chosen items[i] := by
      intro hci
      by_cases hik : i = k
      · simp [hik] at ho
      · simp only [if_neg hik] at ho
        rw [if_pos ⟨hi, hci⟩] at ho
        cases ho
    have := filter_tagged f _ i hi
    rw [(hf' i hi).2 hci] at this
    exact List.map_eq_nil_iff.mp this
  · constructor
    · intro h; cases h
    · rintro ⟨i, _, h⟩
      split at h
      · cases h
      · split at h <;> cases h
  · simp only [true_iff]
    refine ⟨⟨k, hk, by simp⟩, ?_⟩
    rintro ⟨i, _, h⟩
    split at h
    · cases h
    · split at h <;> cases h
  · intro w
    constructor
    · intro hw
      obtain ⟨e, he, rfl⟩ := List.mem_map.mp hw
      obtain ⟨j, hj, he⟩ := List.mem_flatMap.mp he
      obtain ⟨w, hw', rfl⟩ := List.mem_map.mp he
      have hj := List.mem_range.mp hj
      by_cases hci : chosen items[j]
      · exact ⟨j, hj, hci, hyes j hj hci ▸ hw'⟩
      · rw [(hf' j hj).2 hci] at hw'
        cases hw'
    · rintro ⟨i, hi, hci, hw⟩
      rw [← hyes i hi hci] at hw
      exact List.mem_map.mpr ⟨(i, w), List.mem_flatMap.mpr ⟨i, List.mem_range.mpr hi, List.mem_map.mpr ⟨w, hw, rfl⟩⟩, rfl⟩

theorem temp_steps (m : Libm) (w : World) (dirs : Text → Bool) (filter : List Nat) (run : Run) :
    Dwd.renderRun m w dirs [LayerType.temp2m.name] filter run =
      ParTry (runStep m run dirs filter (Dwd.tempLayers w run)) run.model.forecastSteps := by
  refine (flow_parts [LayerType.temp2m.name] _ _ _ (Dwd.readHhl w run run.model.verticalLevels)
    (Dwd.renderVerticalCloud m w dirs filter run) (Dwd.renderVerticalWind m w dirs filter run)).trans ?_
  rw [chosenTurns_one .temp2m (by decide)]
  exact seq_one _

/-- A call for the temperature of the third hour succeeds on a server that lacks another file. -/
theorem lacking_third (m : Libm) (hm : AccurateRow m) {r : Req} {url : Text} (hu : fileUrl lateRun r = .ok url)
    (hr : r ≠ .single .t2m 3) :
    ∃ tr, Dwd.renderRun m (lackingWorld url) (fun _ => false) [LayerType.temp2m.name] [3] lateRun tr .done ∧
      ∃ x ∈ tr, IsData x.content := by
  have hone : ∀ v, ChosenVar [LayerType.temp2m.name] v → v = .temp2m := by
    intro v hv
    rcases hv with hv | hv
    · cases hv
    · revert hv
      cases v <;> decide +kernel
  have hnot : ¬ (ChosenVar [LayerType.temp2m.name] .verticalCloud ∨ ChosenVar [LayerType.temp2m.name] .verticalWind) := by
    rintro (h | h)
    · cases hone _ h
    · cases hone _ h
  obtain ⟨⟨tr, h⟩, -⟩ := C105_run m hm (lackingWorld url) (fun _ => false) [LayerType.temp2m.name] [3] lateRun (.inl rfl)
    demoArea demoArea_valid 2 2 (fun v hv s _ hc r' hr' => by
      rw [hone v hv] at hr'
      have hr' : r' = .single .t2m s.nr := hr'
      have h3 : s.nr = 3 := by
        rcases hc with hc | hc
        · cases hc
        · exact List.mem_singleton.mp hc
      exact lacking_published hu (by rw [hr', h3]; exact fun h => hr h.symm)) (fun h => absurd h hnot)
  refine ⟨tr, h, ?_⟩
  obtain ⟨url', hu', _, _⟩ := C52_download (run := lateRun) (.inl rfl) (.single .t2m 3)
  have hne : url' ≠ url := by
    rintro rfl
    exact hr (C52_injective lateRun_usual lateRun_usual _ _ hu' hu).2.symm
  obtain ⟨bytes, hb, -⟩ := C89_temperature m (lackingWorld url) _ _ [3] lateRun (.inl rfl) (by decide) tr h (.inr (by simp)) _
    step3 (.inr (by decide)) weatherMsg 2 2 ⟨weatherMsg_ok, .inl trivial, url', Spec.Grib2.encode weatherMsg, [], hu',
      if_neg hne, (List.append_nil _).symm⟩ weatherMsg_field (fun _ => none)
  obtain ⟨x, hx, -, hc⟩ := data_written hb
  exact ⟨x, hx, bytes, hc⟩

/-- A lost file makes reading the temperature an error. -/
theorem lacking_fifth {url : Text} (hu : fileUrl lateRun (.single .t2m 5) = .ok url) :
    Dwd.tempLayers (lackingWorld url) lateRun ⟨5, []⟩ = .err := by
  have hlost : Lost (lackingWorld url) url := .missing (if_pos rfl)
  have hbad := lost_not_readable (.inl rfl) hu hlost
  rw [temp_eq]
  cases h : dwdLayers (lackingWorld url) lateRun .temp2m 5 with
  | err => rfl
  | ok l => exact absurd (uses_readable (.inl rfl) h _ rfl) hbad
  | panic =>
    refine absurd h (bind_no_panic ?_ ?_)
    · exact rect_no_panic (.inl rfl) demoArea_valid (ni := 2) (nj := 2) (.inr ⟨url, hu, hlost⟩) _ _
    · intro a _ h; cases h

/-- C186 fails: a server without the temperature of the fifth hour. Of two executions of the same call for the third and the
fifth hour, both of which fail, one writes data of the third hour, the other one nothing. -/
theorem C186_counterexample : ∃ (e : Environment) (tr : List Write),
    mainEffect e "icon-d2".toList ["temp_2m".toList] [3, 5] [] .failed ∧
    mainEffect e "icon-d2".toList ["temp_2m".toList] [3, 5] tr .failed ∧ ∃ x ∈ tr, IsData x.content := by
  obtain ⟨m, hm⟩ := exists_accurateRow
  obtain ⟨url, hu, _, _⟩ := C52_download (run := lateRun) (.inl rfl) (.single .t2m 5)
  have hn : ["temp_2m".toList] = [LayerType.temp2m.name] := by decide +kernel
  have h5 : (⟨5, []⟩ : RunStep) ∈ lateRun.model.forecastSteps := by decide
  have hfail : runStep m lateRun (fun _ => false) [3, 5] (Dwd.tempLayers (lackingWorld url) lateRun) ⟨5, []⟩ [] .failed := by
    unfold runStep
    rw [if_pos (by decide), lacking_fifth hu]
    exact ⟨rfl, rfl⟩
  obtain ⟨tr', h', x, hx, hd⟩ := lacking_third m hm hu (by simp)
  rw [temp_steps] at h'
  obtain ⟨traces, t1, t2⟩ := parTry_done h'
  obtain ⟨i, hi, hxi⟩ := (t2 x).mp hx
  have hsel : selected [3] lateRun.model.forecastSteps[i] = true := by
    by_contra hs
    have := t1 i hi
    unfold runStep at this
    rw [if_neg hs] at this
    rw [this.1] at hxi
    cases hxi
  have hnr : lateRun.model.forecastSteps[i].nr = 3 := by
    unfold selected at hsel
    simpa using hsel
  have hsame : ∀ (s : RunStep) (t : List Write) (o : Outcome), s.nr = 3 →
      (runStep m lateRun (fun _ => false) [3] (Dwd.tempLayers (lackingWorld url) lateRun) s t o ↔
        runStep m lateRun (fun _ => false) [3, 5] (Dwd.tempLayers (lackingWorld url) lateRun) s t o) := by
    intro s t o hs
    unfold runStep selected
    rw [hs]
    exact Iff.rfl
  obtain ⟨tr, h, s2⟩ := parTry_some (work := runStep m lateRun (fun _ => false) [3, 5]
    (Dwd.tempLayers (lackingWorld url) lateRun)) h5 hfail (fun s => s.nr = 3) (by decide) traces
      (fun j hj hs3 => (hsame _ _ _ hs3).mp (t1 j hj))
  refine ⟨lackingMachine m url, tr, ?_, ?_, ?_⟩
  · rw [hn, lacking_main, temp_steps]
    exact parTry_exists_failed h5 hfail
  · rw [hn, lacking_main, temp_steps]
    exact h
  · exact ⟨x, (s2 x).mpr ⟨i, hi, hnr, hxi⟩, hd⟩

end Verif.Props
