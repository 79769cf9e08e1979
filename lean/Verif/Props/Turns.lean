import Verif.Props.ProgramSwiss

/-!
# C184: several variables in one call are like one call for each
-/

namespace Verif.Props

open Verif MapTileRenderer

/-! ## Specification -/

/-- The order in which variables are rendered. -/
def turns : List LayerType := [.cloudPrecip, .wind10m, .temp2m, .verticalCloud, .verticalWind]

/-- The variables that a filter selects, in the order in which they are rendered. -/
def chosenTurns (vars : List Text) : List LayerType := turns.filter fun v => vars = [] ∨ v.name ∈ vars

/-- Several calls one after another, each one only if the one before has succeeded: either all succeed, or
some of them succeed, the next one does not, and the rest are not made. -/
def OneByOne (calls : List (List Write → Outcome → Prop)) (tr : List Write) (o : Outcome) : Prop :=
  (o = .done ∧ ∃ trs, List.Forall₂ (fun call t => call t .done) calls trs ∧ tr = trs.flatten) ∨
    (o ≠ .done ∧ ∃ before call after trs t, calls = before ++ call :: after ∧
      List.Forall₂ (fun call t => call t .done) before trs ∧ call t o ∧ tr = trs.flatten ++ t)

/-! ## Pieces of work one after another -/

theorem seq_cons_iff {e : Effect} {es : List Effect} {tr : List Write} {o : Outcome} : Seq (e :: es) tr o ↔
    (∃ t1 t2, e t1 .done ∧ Seq es t2 o ∧ tr = t1 ++ t2) ∨ (o ≠ .done ∧ e tr o) := by
  constructor
  · intro h
    cases h with
    | cons h1 h2 => exact .inl ⟨_, _, h1, h2, rfl⟩
    | stop h1 h2 => exact .inr ⟨h2, h1⟩
  · rintro (⟨t1, t2, h1, h2, rfl⟩ | ⟨h1, h2⟩)
    · exact .cons h1 h2
    · exact .stop h2 h1

theorem seq_nil_iff {tr : List Write} {o : Outcome} : Seq ([] : List Effect) tr o ↔ tr = [] ∧ o = .done := by
  constructor
  · intro h; cases h; exact ⟨rfl, rfl⟩
  · rintro ⟨rfl, rfl⟩; exact .nil

theorem seq_oneByOne {es : List Effect} : ∀ {tr : List Write} {o : Outcome}, Seq es tr o ↔ OneByOne es tr o := by
  induction es with
  | nil =>
    intro tr o
    rw [seq_nil_iff]
    constructor
    · rintro ⟨rfl, rfl⟩; exact .inl ⟨rfl, [], .nil, rfl⟩
    · rintro (⟨rfl, trs, h, rfl⟩ | ⟨-, before, call, after, trs, t, h, -⟩)
      · cases h; exact ⟨rfl, rfl⟩
      · cases before <;> cases h
  | cons e es ih =>
    intro tr o
    rw [seq_cons_iff]
    constructor
    · rintro (⟨t1, t2, h1, h2, rfl⟩ | ⟨ho, he⟩)
      · rcases ih.mp h2 with ⟨rfl, trs, h, rfl⟩ | ⟨ho, before, call, after, trs, t, rfl, h3, h4, rfl⟩
        · exact .inl ⟨rfl, t1 :: trs, .cons h1 h, rfl⟩
        · exact .inr ⟨ho, e :: before, call, after, t1 :: trs, t, rfl, .cons h1 h3, h4, by simp⟩
      · exact .inr ⟨ho, [], e, es, [], tr, rfl, .nil, he, rfl⟩
    · rintro (⟨rfl, trs, h, rfl⟩ | ⟨ho, before, call, after, trs, t, h, h3, h4, rfl⟩)
      · cases h with
        | cons h1 h2 => exact .inl ⟨_, _, h1, ih.mpr (.inl ⟨rfl, _, h2, rfl⟩), rfl⟩
      · cases before with
        | nil =>
          cases h3
          injection h with h5 h6
          subst h5
          exact .inr ⟨ho, h4⟩
        | cons b before =>
          injection h with h5 h6
          subst h5
          cases h3 with
          | cons h1 h2 =>
            exact .inl ⟨_, _, h1, ih.mpr (.inr ⟨ho, before, call, after, _, t, h6, h2, h4, rfl⟩), by simp⟩

/-- Nothing is done. -/
def skip : Effect := fun tr o => tr = [] ∧ o = .done

theorem seq_skip (es : List Effect) : Seq (skip :: es) = Seq es := by
  funext tr o
  refine propext (seq_cons_iff.trans ⟨?_, fun h => .inl ⟨[], tr, ⟨rfl, rfl⟩, h, rfl⟩⟩)
  rintro (⟨t1, t2, ⟨rfl, -⟩, h, rfl⟩ | ⟨h, -, rfl⟩)
  · exact h
  · exact absurd rfl h

theorem seq_one (e : Effect) : Seq [e] = e := by
  funext tr o
  refine propext (seq_cons_iff.trans ⟨?_, fun h => ?_⟩)
  · rintro (⟨t1, t2, h, h2, rfl⟩ | ⟨-, h⟩)
    · obtain ⟨rfl, rfl⟩ := seq_nil_iff.mp h2
      rwa [List.append_nil]
    · exact h
  · by_cases ho : o = .done
    · subst ho
      exact .inl ⟨tr, [], h, .nil, (List.append_nil _).symm⟩
    · exact .inr ⟨ho, h⟩

theorem seq_congr (e : Effect) {es es' : List Effect} (h : Seq es = Seq es') : Seq (e :: es) = Seq (e :: es') := by
  funext tr o
  refine propext (seq_cons_iff.trans (Iff.trans ?_ seq_cons_iff.symm))
  rw [h]

/-- An effect that never succeeds: nothing comes after it. -/
theorem seq_stuck {e : Effect} (h : ∀ tr, ¬ e tr .done) (es : List Effect) : Seq (e :: es) = e := by
  funext tr o
  refine propext (seq_cons_iff.trans ⟨?_, fun he => .inr ⟨?_, he⟩⟩)
  · rintro (⟨t1, t2, h1, -⟩ | ⟨-, he⟩)
    · exact absurd h1 (h t1)
    · exact he
  · rintro rfl; exact h tr he

theorem when_skip {c : Bool} (e : Effect) (h : c = false) : Effect.when c e = skip := by subst h; rfl

theorem when_do {c : Bool} (e : Effect) (h : c = true) : Effect.when c e = e := by subst h; rfl

/-- Needing something for each of several pieces of work is needing it once, if there is any work. -/
theorem need_seq {α β : Type} (r : Res α) (f : α → β → Effect) {vs : List β} (h : vs ≠ []) :
    Effect.need r (fun a => Seq (vs.map (f a))) = Seq (vs.map fun v => Effect.need r fun a => f a v) := by
  cases vs with
  | nil => exact absurd rfl h
  | cons v vs =>
    cases r with
    | ok a => rfl
    | err => exact (seq_stuck (by rintro tr ⟨-, h⟩; cases h) _).symm
    | panic => exact (seq_stuck (by rintro tr ⟨-, h⟩; cases h) _).symm

theorem stuck_need {α : Type} {r : Res α} (h : ∀ a, r ≠ .ok a) (f g : α → Effect) :
    Effect.need r f = Effect.need r g ∧ ∀ tr, ¬ Effect.need r f tr .done := by
  cases r with
  | ok a => exact absurd rfl (h a)
  | err => exact ⟨rfl, by rintro tr ⟨-, h⟩; cases h⟩
  | panic => exact ⟨rfl, by rintro tr ⟨-, h⟩; cases h⟩

/-- The two vertical variables share the heights of levels. -/
theorem shared_need {α : Type} (r : Res α) (d e : α → Effect) (c c' : Bool) :
    Effect.when (c || c') (Effect.need r fun a => Seq [Effect.when c (d a), Effect.when c' (e a)]) =
      Seq [Effect.when c (Effect.need r d), Effect.when c' (Effect.need r e)] := by
  by_cases h : ∃ a, r = .ok a
  · obtain ⟨a, rfl⟩ := h
    cases c <;> cases c'
    · show skip = Seq [skip, skip]
      rw [seq_skip, seq_one]
    all_goals rfl
  · have hr : ∀ a, r ≠ .ok a := fun a ha => h ⟨a, ha⟩
    cases c <;> cases c'
    · show skip = Seq [skip, skip]
      rw [seq_skip, seq_one]
    · show Effect.need r _ = Seq [skip, Effect.need r e]
      rw [seq_skip, seq_one]
      exact (stuck_need hr _ _).1
    · show Effect.need r _ = Seq [Effect.need r d, skip]
      rw [seq_stuck (stuck_need hr d d).2]
      exact (stuck_need hr _ _).1
    · show Effect.need r _ = Seq [Effect.need r d, Effect.need r e]
      rw [seq_stuck (stuck_need hr d d).2]
      exact (stuck_need hr _ _).1

theorem seq_flatten (a b c : Effect) (es : List Effect) : Seq [a, b, c, Seq es] = Seq (a :: b :: c :: es) :=
  seq_congr a (seq_congr b (seq_congr c (seq_one _)))

/-! ## The variables of a call -/

/-- The five parts of a call, of which the last two need the heights of levels. -/
def flow {α : Type} (vars : List Text) (a b c : Effect) (r : Res α) (d e : α → Effect) : Effect :=
  Seq [Effect.when (variableChosen vars .cloudPrecip) a, Effect.when (variableChosen vars .wind10m) b,
    Effect.when (variableChosen vars .temp2m) c,
    Effect.when (vars.isEmpty || vars.contains LayerType.verticalCloud.name || vars.contains LayerType.verticalWind.name)
      (Effect.need r fun x => Seq [Effect.when (variableChosen vars .verticalCloud) (d x),
        Effect.when (variableChosen vars .verticalWind) (e x)])]

/-- The part of one variable. -/
def flowPart {α : Type} (a b c : Effect) (r : Res α) (d e : α → Effect) : LayerType → Effect
  | .cloudPrecip => a
  | .wind10m => b
  | .temp2m => c
  | .verticalCloud => Effect.need r d
  | .verticalWind => Effect.need r e
  | _ => skip

theorem vertical_or (vars : List Text) :
    (vars.isEmpty || vars.contains LayerType.verticalCloud.name || vars.contains LayerType.verticalWind.name) =
      (variableChosen vars .verticalCloud || variableChosen vars .verticalWind) := by
  unfold variableChosen
  cases vars.isEmpty <;> simp

theorem seq_when {β : Type} (p : β → Bool) (f : β → Effect) (vs : List β) :
    Seq (vs.map fun v => Effect.when (p v) (f v)) = Seq ((vs.filter p).map f) := by
  induction vs with
  | nil => rfl
  | cons v vs ih =>
    cases h : p v with
    | false =>
      rw [List.filter_cons_of_neg (by simp [h]), List.map_cons, when_skip _ h, seq_skip]
      exact ih
    | true =>
      rw [List.filter_cons_of_pos h, List.map_cons, when_do _ h]
      exact seq_congr _ ih

theorem chosenTurns_eq (vars : List Text) : chosenTurns vars = turns.filter (variableChosen vars) := by
  unfold chosenTurns variableChosen
  congr 1
  funext v
  cases vars <;> simp

theorem flow_parts {α : Type} (vars : List Text) (a b c : Effect) (r : Res α) (d e : α → Effect) :
    flow vars a b c r d e = Seq ((chosenTurns vars).map (flowPart a b c r d e)) := by
  rw [chosenTurns_eq, ← seq_when]
  unfold flow
  rw [vertical_or, shared_need, seq_flatten]
  rfl

theorem chosenTurns_one : ∀ v ∈ turns, chosenTurns [v.name] = [v] := by decide +kernel

theorem flow_turns {α : Type} (vars : List Text) (a b c : Effect) (r : Res α) (d e : α → Effect) :
    flow vars a b c r d e = Seq ((chosenTurns vars).map fun v => flow [v.name] a b c r d e) := by
  rw [flow_parts]
  congr 1
  refine List.map_congr_left fun v hv => ?_
  rw [flow_parts, chosenTurns_one v (List.mem_filter.mp hv).1]
  exact (seq_one _).symm

/-! ## The program -/

theorem dwd_turns (m : Libm) (w : World) (dirs : Text → Bool) (vars : List Text) (filter : List Nat) (run : Run) :
    Dwd.renderRun m w dirs vars filter run =
      Seq ((chosenTurns vars).map fun v => Dwd.renderRun m w dirs [v.name] filter run) :=
  flow_turns vars _ _ _ (Dwd.readHhl w run run.model.verticalLevels) (Dwd.renderVerticalCloud m w dirs filter run)
    (Dwd.renderVerticalWind m w dirs filter run)

theorem dwd_latest_turns (m : Libm) (w : World) (dirs : Text → Bool) (today now : Date) (available : Text → Bool)
    (model : FcModel) {vars : List Text} (filter : List Nat) (h : chosenTurns vars ≠ []) :
    Dwd.renderLatest m w dirs today now available model vars filter =
      Seq ((chosenTurns vars).map fun v => Dwd.renderLatest m w dirs today now available model [v.name] filter) := by
  unfold Dwd.renderLatest
  rw [← need_seq (Dwd.findLatestRun model today now available)
    (fun run v => Dwd.renderRun m w dirs [v.name] filter run) h]
  congr 1
  funext run
  rw [dwd_turns]

theorem swiss_turns (m : Libm) (w : World) (s : Swiss.Service) (cal : Swiss.Calendar) (dirs : Text → Bool)
    (vars : List Text) (filter : List Nat) (grid : UnstructuredGrid) (url : Text) (t : Instant) :
    Swiss.renderRun m w s cal dirs vars filter grid url t =
      Seq ((chosenTurns vars).map fun v => Swiss.renderRun m w s cal dirs [v.name] filter grid url t) :=
  flow_turns vars _ _ _ (Swiss.readHhl w grid url) (Swiss.renderVerticalCloud m w s cal dirs filter grid t)
    (Swiss.renderVerticalWind m w s cal dirs filter grid t)

theorem need_congr {α : Type} (r : Res α) {f g : α → Effect} (h : ∀ a, f a = g a) : Effect.need r f = Effect.need r g := by
  congr 1
  funext a
  exact h a

theorem swiss_latest_turns (m : Libm) (w : World) (s : Swiss.Service) (cal : Swiss.Calendar) (dirs : Text → Bool)
    {vars : List Text} (filter : List Nat) (h : chosenTurns vars ≠ []) :
    Swiss.renderLatest m w s cal dirs vars filter =
      Seq ((chosenTurns vars).map fun v => Swiss.renderLatest m w s cal dirs [v.name] filter) := by
  unfold Swiss.renderLatest
  refine (need_congr _ fun assets => ?_).trans (need_seq _ _ h)
  refine (need_congr _ fun hor => ?_).trans (need_seq _ _ h)
  refine (need_congr _ fun grid => ?_).trans (need_seq _ _ h)
  refine (need_congr _ fun vert => ?_).trans (need_seq _ _ h)
  refine (need_congr _ fun refTimes => ?_).trans (need_seq _ _ h)
  refine (need_congr _ fun t => ?_).trans (need_seq _ _ h)
  exact swiss_turns ..

theorem main_turns (e : Environment) (model : Text) (vars : List Text) (filter : List Nat)
    (h : chosenTurns vars ≠ []) :
    mainEffect e model vars filter = Seq ((chosenTurns vars).map fun v => mainEffect e model [v.name] filter) := by
  unfold mainEffect
  by_cases h1 : model = "icon-ch1".toList
  · simp only [if_pos h1]
    exact swiss_latest_turns _ _ _ _ _ filter h
  simp only [if_neg h1]
  by_cases h2 : model = "icon-d2".toList
  · simp only [if_pos h2]
    exact dwd_latest_turns _ _ _ _ _ _ _ filter h
  simp only [if_neg h2]
  by_cases h3 : model = "icon-eu".toList
  · simp only [if_pos h3]
    exact dwd_latest_turns _ _ _ _ _ _ _ filter h
  simp only [if_neg h3]
  generalize chosenTurns vars = vs
  induction vs with
  | nil => exact (by funext tr o; exact propext seq_nil_iff.symm)
  | cons v vs ih => exact ih.trans (seq_skip _).symm

/-- C184. What a call for several variables can write, and how it can end, is exactly what the calls for each of
them, one after another up to the first that does not succeed, can write, and how they can end. -/
theorem C184_turns (e : Environment) (model : Text) (vars : List Text) (filter : List Nat)
    (h : chosenTurns vars ≠ []) (tr : List Write) (o : Outcome) :
    mainEffect e model vars filter tr o ↔
      OneByOne ((chosenTurns vars).map fun v => mainEffect e model [v.name] filter) tr o := by
  rw [main_turns e model vars filter h]
  exact seq_oneByOne

end Verif.Props
