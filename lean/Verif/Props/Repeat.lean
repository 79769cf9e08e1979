import Verif.Lemmas.Monotone

/-!
# C141-C143: repeating, splitting and resuming calls of the program

A call of the program writes a list of files (`tr`) and ends in one of several ways; the order of the writes depends
on the threads.  `before.write tr` is the content of the disk afterwards.
-/

namespace Verif.Props

open Verif MapTileRenderer

/-! ## C143: resuming -/

theorem resume {e e' : Environment} (hx : e.Extends e') {model : Text} {vars vars' : List Text}
    {filter filter' : List Nat} (hn : Narrower vars filter vars' filter') {tr tr' : List Write} {o : Outcome}
    (h : mainEffect e model vars filter tr o) (h' : mainEffect e' model vars' filter' tr' .done) (before : Tree) :
    (before.write tr).write tr' = before.write tr' ∧ (before.write tr').write tr = before.write tr' := by
  refine Tree.write_absorb (fun w hw => ?_) (fun w hw w' hw' he => ?_) before
  · exact (C87_main e' model vars' filter' tr').2 h' w (((C87_main e model vars filter tr).1 o h w hw).mono hx hn)
  · have a := (C87_main e' model vars' filter' tr').1 _ h' w hw
    have b := (C87_main e' model vars' filter' tr').1 _ h' w' hw'
    rw [← he] at b
    exact mainExpected_functional a b

/-- C143: an interrupted call does no harm.  Take a call that ended in any way, with an error or a panic too, and a
later successful call with the same options in an environment that gives all the answers of the first: the
files on the disk are those of the later call alone. -/
theorem C143_resume {e e' : Environment} (hx : e.Extends e') (model : Text) (vars : List Text) (filter : List Nat)
    (tr tr' : List Write) (o : Outcome) (h : mainEffect e model vars filter tr o)
    (h' : mainEffect e' model vars filter tr' .done) (before : Tree) :
    (before.write tr).write tr' = before.write tr' :=
  (resume hx ⟨fun _ h => h, fun _ h => h⟩ h h' before).1

/-- C143: all files that the interrupted call wrote are already final: the later call writes them with the same
contents. -/
theorem C143_final {e e' : Environment} (hx : e.Extends e') (model : Text) (vars : List Text) (filter : List Nat)
    (tr tr' : List Write) (o : Outcome) (h : mainEffect e model vars filter tr o)
    (h' : mainEffect e' model vars filter tr' .done) (before : Tree) (x : Write) (hw : x ∈ tr) :
    before.write tr x.path = some x.content ∧ (before.write tr).write tr' x.path = some x.content := by
  have hm := (C87_main e model vars filter tr).1 o h x hw
  constructor
  · refine (before.write_eq tr x.path).1 _ ⟨x, hw, rfl⟩ fun y hy hp => ?_
    have := (C87_main e model vars filter tr).1 o h y hy
    rw [hp] at this
    exact mainExpected_functional this hm
  · have hn : Narrower vars filter vars filter := ⟨fun _ h => h, fun _ h => h⟩
    rw [C143_resume hx model vars filter tr tr' o h h' before]
    refine (before.write_eq tr' x.path).1 _ ⟨x, (C87_main e' model vars filter tr').2 h' _ (hm.mono hx hn), rfl⟩
      fun y hy hp => ?_
    have := (C87_main e' model vars filter tr').1 _ h' y hy
    rw [hp] at this
    exact mainExpected_functional this (hm.mono hx hn)

/-- C143: a call that is interrupted after another one succeeded changes nothing. -/
theorem C143_after {e e' : Environment} (hx : e.Extends e') (model : Text) (vars : List Text) (filter : List Nat)
    (tr tr' : List Write) (o : Outcome) (h : mainEffect e model vars filter tr o)
    (h' : mainEffect e' model vars filter tr' .done) (before : Tree) :
    (before.write tr').write tr = before.write tr' :=
  (resume hx ⟨fun _ h => h, fun _ h => h⟩ h h' before).2

/-! ## C141: repeating -/

/-- C141: the result does not depend on the threads, nor on which directories exist: two successful calls leave the same
files. -/
theorem C141_same (e : Environment) (dirs : Text → Bool) (model : Text) (vars : List Text) (filter : List Nat)
    (tr tr' : List Write) (h : mainEffect e model vars filter tr .done)
    (h' : mainEffect { e with dirs := dirs } model vars filter tr' .done) (before : Tree) :
    before.write tr = before.write tr' := by
  have hx : e.Extends { e with dirs := dirs } := ⟨rfl, (Environment.Extends.refl e).world,
    (Environment.Extends.refl e).service, rfl, rfl, rfl, rfl⟩
  have hx' : ({ e with dirs := dirs } : Environment).Extends e := ⟨rfl, (Environment.Extends.refl e).world,
    (Environment.Extends.refl e).service, rfl, rfl, rfl, rfl⟩
  have hn : Narrower vars filter vars filter := ⟨fun _ h => h, fun _ h => h⟩
  exact (resume hx' hn h' h before).2.symm.trans (resume hx hn h h' before).1

/-- C141: calling the program again changes nothing. -/
theorem C141_repeat (e : Environment) (dirs : Text → Bool) (model : Text) (vars : List Text) (filter : List Nat)
    (tr tr' : List Write) (h : mainEffect e model vars filter tr .done)
    (h' : mainEffect { e with dirs := dirs } model vars filter tr' .done) (before : Tree) :
    (before.write tr).write tr' = before.write tr := by
  have hx : e.Extends { e with dirs := dirs } := ⟨rfl, (Environment.Extends.refl e).world,
    (Environment.Extends.refl e).service, rfl, rfl, rfl, rfl⟩
  rw [C143_resume hx model vars filter tr tr' .done h h' before]
  exact (C141_same e dirs model vars filter tr tr' h h' before).symm

/-! ## C142: splitting -/

theorem narrower_vars_left (vars vars' : List Text) (h : vars ≠ []) (filter : List Nat) :
    Narrower vars filter (vars ++ vars') filter :=
  ⟨fun _ hv => .inr (List.mem_append_left _ (hv.resolve_left h)), fun _ h => h⟩

theorem narrower_vars_right (vars vars' : List Text) (h : vars' ≠ []) (filter : List Nat) :
    Narrower vars' filter (vars ++ vars') filter :=
  ⟨fun _ hv => .inr (List.mem_append_right _ (hv.resolve_left h)), fun _ h => h⟩

theorem narrower_filter_left (vars : List Text) (filter filter' : List Nat) (h : filter ≠ []) :
    Narrower vars filter vars (filter ++ filter') :=
  ⟨fun _ h => h, fun _ hv => .inr (List.mem_append_left _ (hv.resolve_left h))⟩

theorem narrower_filter_right (vars : List Text) (filter filter' : List Nat) (h : filter' ≠ []) :
    Narrower vars filter' vars (filter ++ filter') :=
  ⟨fun _ h => h, fun _ hv => .inr (List.mem_append_right _ (hv.resolve_left h))⟩

theorem chosenVar_append {vars vars' : List Text} (h : vars ≠ []) (h' : vars' ≠ []) (v : LayerType) :
    ChosenVar (vars ++ vars') v ↔ ChosenVar vars v ∨ ChosenVar vars' v := by
  unfold ChosenVar
  simp [h, h']

theorem chosen_append {filter filter' : List Nat} (h : filter ≠ []) (h' : filter' ≠ []) (s : RunStep) :
    Chosen (filter ++ filter') s ↔ Chosen filter s ∨ Chosen filter' s := by
  unfold Chosen
  simp [h, h']

theorem expected_append {m : Libm} {run : Run} {steps : List RunStep} {filter filter' : List Nat} (h : filter ≠ [])
    (h' : filter' ≠ []) {read : RunStep → Res Layers} {p : Text} {c : Content} :
    Expected m run steps (filter ++ filter') read p c ↔
      Expected m run steps filter read p c ∨ Expected m run steps filter' read p c := by
  unfold Expected
  simp only [chosen_append h h']
  constructor
  · rintro ⟨s, hs, hc | hc, rest⟩
    · exact .inl ⟨s, hs, hc, rest⟩
    · exact .inr ⟨s, hs, hc, rest⟩
  · rintro (⟨s, hs, hc, rest⟩ | ⟨s, hs, hc, rest⟩)
    · exact ⟨s, hs, .inl hc, rest⟩
    · exact ⟨s, hs, .inr hc, rest⟩

theorem mainExpected_filter {e : Environment} {model : Text} {vars : List Text} {filter filter' : List Nat}
    (h : filter ≠ []) (h' : filter' ≠ []) {p : Text} {c : Content} :
    MainExpected e model vars (filter ++ filter') p c ↔
      MainExpected e model vars filter p c ∨ MainExpected e model vars filter' p c := by
  constructor
  · rintro (⟨dwd, hm, run, hr, v, hv, hx⟩ | ⟨hm, assets, hor, vert, grid, refTimes, t, a1, a2, a3, a4, a5, a6, v, hv,
      run, steps, b1, b2, hx⟩)
    · rcases (expected_append h h').mp hx with hx | hx
      · exact .inl (.inl ⟨dwd, hm, run, hr, v, hv, hx⟩)
      · exact .inr (.inl ⟨dwd, hm, run, hr, v, hv, hx⟩)
    · rcases (expected_append h h').mp hx with hx | hx
      · exact .inl (.inr ⟨hm, assets, hor, vert, grid, refTimes, t, a1, a2, a3, a4, a5, a6, v, hv, run, steps, b1, b2, hx⟩)
      · exact .inr (.inr ⟨hm, assets, hor, vert, grid, refTimes, t, a1, a2, a3, a4, a5, a6, v, hv, run, steps, b1, b2, hx⟩)
  · rintro (hx | hx)
    · exact hx.mono (.refl e) (narrower_filter_left vars filter filter' h)
    · exact hx.mono (.refl e) (narrower_filter_right vars filter filter' h')

theorem mainExpected_vars {e : Environment} {model : Text} {vars vars' : List Text} {filter : List Nat}
    (h : vars ≠ []) (h' : vars' ≠ []) {p : Text} {c : Content} :
    MainExpected e model (vars ++ vars') filter p c ↔
      MainExpected e model vars filter p c ∨ MainExpected e model vars' filter p c := by
  constructor
  · rintro (⟨dwd, hm, run, hr, v, hv, hx⟩ | ⟨hm, assets, hor, vert, grid, refTimes, t, a1, a2, a3, a4, a5, a6, v, hv,
      hx⟩)
    · rcases (chosenVar_append h h' v).mp hv with hv | hv
      · exact .inl (.inl ⟨dwd, hm, run, hr, v, hv, hx⟩)
      · exact .inr (.inl ⟨dwd, hm, run, hr, v, hv, hx⟩)
    · rcases (chosenVar_append h h' v).mp hv with hv | hv
      · exact .inl (.inr ⟨hm, assets, hor, vert, grid, refTimes, t, a1, a2, a3, a4, a5, a6, v, hv, hx⟩)
      · exact .inr (.inr ⟨hm, assets, hor, vert, grid, refTimes, t, a1, a2, a3, a4, a5, a6, v, hv, hx⟩)
  · rintro (hx | hx)
    · exact hx.mono (.refl e) (narrower_vars_left vars vars' h filter)
    · exact hx.mono (.refl e) (narrower_vars_right vars vars' h' filter)

theorem split_tree {e : Environment} {model : Text} {vars vars₁ vars₂ : List Text} {filter filter₁ filter₂ : List Nat}
    (hs : ∀ p c, MainExpected e model vars filter p c ↔
      MainExpected e model vars₁ filter₁ p c ∨ MainExpected e model vars₂ filter₂ p c)
    {tr tr₁ tr₂ : List Write} (h : mainEffect e model vars filter tr .done)
    (h₁ : mainEffect e model vars₁ filter₁ tr₁ .done) (h₂ : mainEffect e model vars₂ filter₂ tr₂ .done) (before : Tree) :
    (before.write tr₁).write tr₂ = before.write tr := by
  have key : ∀ {vars filter tr}, mainEffect e model vars filter tr .done →
      ∀ x : Write, x ∈ tr ↔ MainExpected e model vars filter x.path x.content := fun h x =>
    ⟨(C87_main e model _ _ _).1 _ h x, (C87_main e model _ _ _).2 h x⟩
  rw [← Tree.write_append]
  refine (Tree.write_congr (fun w => ?_) (fun w hw w' hw' he => ?_) before).symm
  · rw [List.mem_append, key h, key h₁, key h₂, hs]
  · have a := (key h w).mp hw
    have b := (key h w').mp hw'
    rw [← he] at b
    exact mainExpected_functional a b

/-- C142: a call for some forecast steps and one for others leave the same files as a single call for all of them,
in either order. -/
theorem C142_steps (e : Environment) (model : Text) (vars : List Text) (filter₁ filter₂ : List Nat) (n₁ : filter₁ ≠ [])
    (n₂ : filter₂ ≠ []) (tr tr₁ tr₂ : List Write) (h : mainEffect e model vars (filter₁ ++ filter₂) tr .done)
    (h₁ : mainEffect e model vars filter₁ tr₁ .done) (h₂ : mainEffect e model vars filter₂ tr₂ .done) (before : Tree) :
    (before.write tr₁).write tr₂ = before.write tr ∧ (before.write tr₂).write tr₁ = before.write tr :=
  ⟨split_tree (fun _ _ => mainExpected_filter n₁ n₂) h h₁ h₂ before,
    split_tree (fun _ _ => (mainExpected_filter n₁ n₂).trans or_comm) h h₂ h₁ before⟩

/-- C142: a call for some variables and one for others leave the same files as a single call for all of them, in
either order. -/
theorem C142_variables (e : Environment) (model : Text) (vars₁ vars₂ : List Text) (filter : List Nat) (n₁ : vars₁ ≠ [])
    (n₂ : vars₂ ≠ []) (tr tr₁ tr₂ : List Write) (h : mainEffect e model (vars₁ ++ vars₂) filter tr .done)
    (h₁ : mainEffect e model vars₁ filter tr₁ .done) (h₂ : mainEffect e model vars₂ filter tr₂ .done) (before : Tree) :
    (before.write tr₁).write tr₂ = before.write tr ∧ (before.write tr₂).write tr₁ = before.write tr :=
  ⟨split_tree (fun _ _ => mainExpected_vars n₁ n₂) h h₁ h₂ before,
    split_tree (fun _ _ => (mainExpected_vars n₁ n₂).trans or_comm) h h₂ h₁ before⟩

/-- C142: a call with narrower options, however it ends, neither damages nor adds to what a successful call left. -/
theorem C142_narrower (e : Environment) (model : Text) (vars vars' : List Text) (filter filter' : List Nat)
    (hv : ∀ v, ChosenVar vars v → ChosenVar vars' v) (hs : ∀ s, Chosen filter s → Chosen filter' s)
    (tr tr' : List Write) (o : Outcome) (h : mainEffect e model vars filter tr o)
    (h' : mainEffect e model vars' filter' tr' .done) (before : Tree) :
    (before.write tr').write tr = before.write tr' ∧ (before.write tr).write tr' = before.write tr' :=
  (resume (.refl e) ⟨hv, hs⟩ h h' before).symm

/-! ### The split calls are possible exactly if the joint one is -/

/-- An effect can succeed. -/
def Can (e : Effect) : Prop := ∃ tr, e tr .done

theorem can_need {α : Type} {r : Res α} {f : α → Effect} : Can (Effect.need r f) ↔ ∃ a, r = .ok a ∧ Can (f a) := by
  cases r with
  | ok a =>
    constructor
    · rintro ⟨tr, h⟩; exact ⟨a, rfl, tr, h⟩
    · rintro ⟨a', h, hc⟩; cases h; exact hc
  | err =>
    constructor
    · rintro ⟨tr, _, h⟩; cases h
    · rintro ⟨a', h, _⟩; cases h
  | panic =>
    constructor
    · rintro ⟨tr, _, h⟩; cases h
    · rintro ⟨a', h, _⟩; cases h

theorem can_when {c : Bool} {e : Effect} : Can (Effect.when c e) ↔ (c = true → Can e) := by
  cases c with
  | true => exact ⟨fun h _ => h, fun h => h rfl⟩
  | false => exact ⟨fun _ h => (nomatch h), fun _ => ⟨[], rfl, rfl⟩⟩

theorem can_seq_nil : Can (Seq []) ↔ True := ⟨fun _ => trivial, fun _ => ⟨[], .nil⟩⟩

theorem can_seq_cons {e : Effect} {es : List Effect} : Can (Seq (e :: es)) ↔ Can e ∧ Can (Seq es) := by
  constructor
  · rintro ⟨tr, ht⟩
    cases ht with
    | cons h1 h2 => exact ⟨⟨_, h1⟩, ⟨_, h2⟩⟩
    | stop _ ho => exact absurd rfl ho
  · rintro ⟨⟨_, h1⟩, ⟨_, h2⟩⟩
    exact ⟨_, .cons h1 h2⟩

theorem can_steps {m : Libm} {run : Run} {dirs : Text → Bool} {steps : List RunStep} {filter : List Nat}
    {read : RunStep → Res Layers} : Can (renderSteps m run dirs steps filter read) ↔
      ∀ s ∈ steps, Chosen filter s → ∃ l, read s = .ok l ∧ CanDraw m run.model.zoomRange l :=
  (C53_succeeds_iff m run dirs steps filter read).1

theorem exists_split {α : Type} {r : Res α} {p q : α → Prop} :
    (∃ a, r = .ok a ∧ p a ∧ q a) ↔ (∃ a, r = .ok a ∧ p a) ∧ ∃ a, r = .ok a ∧ q a := by
  constructor
  · rintro ⟨a, h, hp, hq⟩; exact ⟨⟨a, h, hp⟩, ⟨a, h, hq⟩⟩
  · rintro ⟨⟨a, h, hp⟩, ⟨b, h', hq⟩⟩
    rw [h] at h'
    cases h'
    exact ⟨a, h, hp, hq⟩

theorem can_steps_append {m : Libm} {run : Run} {dirs : Text → Bool} {steps : List RunStep} {filter filter' : List Nat}
    (h : filter ≠ []) (h' : filter' ≠ []) {read : RunStep → Res Layers} :
    Can (renderSteps m run dirs steps (filter ++ filter') read) ↔
      Can (renderSteps m run dirs steps filter read) ∧ Can (renderSteps m run dirs steps filter' read) := by
  simp only [can_steps, chosen_append h h', or_imp, forall_and]

/-- One effect can succeed exactly if two others can. -/
def Splits (e e₁ e₂ : Effect) : Prop := Can e ↔ Can e₁ ∧ Can e₂

theorem Splits.need {α : Type} {r : Res α} {f f₁ f₂ : α → Effect} (h : ∀ a, Splits (f a) (f₁ a) (f₂ a)) :
    Splits (Effect.need r f) (Effect.need r f₁) (Effect.need r f₂) := by
  unfold Splits at h ⊢
  simp only [can_need, h]
  exact exists_split

theorem Splits.when {c : Bool} {e e₁ e₂ : Effect} (h : Splits e e₁ e₂) :
    Splits (Effect.when c e) (Effect.when c e₁) (Effect.when c e₂) := by
  unfold Splits at h ⊢
  simp only [can_when, h]
  tauto

theorem Splits.when_or {c₁ c₂ : Bool} {e : Effect} :
    Splits (Effect.when (c₁ || c₂) e) (Effect.when c₁ e) (Effect.when c₂ e) := by
  unfold Splits
  simp only [can_when, Bool.or_eq_true]
  tauto

theorem Splits.seq_nil : Splits (Seq []) (Seq []) (Seq []) := by
  unfold Splits
  simp only [can_seq_nil, and_self]

theorem Splits.seq_cons {e e₁ e₂ : Effect} {es es₁ es₂ : List Effect} (h : Splits e e₁ e₂)
    (hs : Splits (Seq es) (Seq es₁) (Seq es₂)) : Splits (Seq (e :: es)) (Seq (e₁ :: es₁)) (Seq (e₂ :: es₂)) := by
  unfold Splits at h hs ⊢
  simp only [can_seq_cons, h, hs]
  tauto

theorem splits_dwd_steps (m : Libm) (w : World) (dirs : Text → Bool) (vars : List Text) {filter filter' : List Nat}
    (h : filter ≠ []) (h' : filter' ≠ []) (run : Run) :
    Splits (Dwd.renderRun m w dirs vars (filter ++ filter') run) (Dwd.renderRun m w dirs vars filter run)
      (Dwd.renderRun m w dirs vars filter' run) := by
  have key : ∀ {steps read}, Splits (renderSteps m run dirs steps (filter ++ filter') read)
      (renderSteps m run dirs steps filter read) (renderSteps m run dirs steps filter' read) := can_steps_append h h'
  exact (Splits.when (.need fun _ => key)).seq_cons ((Splits.when key).seq_cons ((Splits.when key).seq_cons
    ((Splits.when (.need fun _ => (Splits.when key).seq_cons ((Splits.when key).seq_cons .seq_nil))).seq_cons .seq_nil)))

theorem splits_swiss_steps (m : Libm) (w : World) (s : Swiss.Service) (cal : Swiss.Calendar) (dirs : Text → Bool)
    (vars : List Text) {filter filter' : List Nat} (h : filter ≠ []) (h' : filter' ≠ []) (grid : UnstructuredGrid)
    (url : Text) (t : Instant) :
    Splits (Swiss.renderRun m w s cal dirs vars (filter ++ filter') grid url t)
      (Swiss.renderRun m w s cal dirs vars filter grid url t) (Swiss.renderRun m w s cal dirs vars filter' grid url t) := by
  have key : ∀ {run steps read}, Splits (renderSteps m run dirs steps (filter ++ filter') read)
      (renderSteps m run dirs steps filter read) (renderSteps m run dirs steps filter' read) := can_steps_append h h'
  exact (Splits.when (.need fun _ => .need fun _ => .need fun _ => .need fun _ => key)).seq_cons
    ((Splits.when (.need fun _ => .need fun _ => .need fun _ => .need fun _ => key)).seq_cons
    ((Splits.when (.need fun _ => .need fun _ => key)).seq_cons
    ((Splits.when (.need fun _ => (Splits.when (.need fun _ => .need fun _ => key)).seq_cons
      ((Splits.when (.need fun _ => .need fun _ => .need fun _ => key)).seq_cons .seq_nil))).seq_cons .seq_nil)))

/-- C142: the call for all steps can succeed exactly if the calls for the parts can. -/
theorem C142_steps_possible (e : Environment) (model : Text) (vars : List Text) (filter₁ filter₂ : List Nat)
    (n₁ : filter₁ ≠ []) (n₂ : filter₂ ≠ []) :
    (∃ tr, mainEffect e model vars (filter₁ ++ filter₂) tr .done) ↔
      (∃ tr, mainEffect e model vars filter₁ tr .done) ∧ ∃ tr, mainEffect e model vars filter₂ tr .done := by
  show Splits _ _ _
  unfold mainEffect
  split
  · exact .need fun _ => .need fun _ => .need fun _ => .need fun _ => .need fun _ => .need fun _ =>
      splits_swiss_steps _ _ _ _ _ _ n₁ n₂ _ _ _
  · split
    · exact .need fun _ => splits_dwd_steps _ _ _ _ n₁ n₂ _
    · split
      · exact .need fun _ => splits_dwd_steps _ _ _ _ n₁ n₂ _
      · exact ⟨fun h => ⟨h, h⟩, fun h => h.1⟩

theorem variableChosen_append {vars vars' : List Text} (h : vars ≠ []) (h' : vars' ≠ []) (v : LayerType) :
    variableChosen (vars ++ vars') v = (variableChosen vars v || variableChosen vars' v) := by
  rw [Bool.eq_iff_iff, Bool.or_eq_true]
  simp only [variableChosen_iff, chosenVar_append h h']

theorem vertical_splits {vars vars' : List Text} (h : vars ≠ []) (h' : vars' ≠ []) {α : Type} {r : Res α}
    {f g : α → Effect} :
    Splits
      (Effect.when ((vars ++ vars').isEmpty || (vars ++ vars').contains LayerType.verticalCloud.name ||
          (vars ++ vars').contains LayerType.verticalWind.name)
        (Effect.need r fun a => Seq [Effect.when (variableChosen (vars ++ vars') .verticalCloud) (f a),
          Effect.when (variableChosen (vars ++ vars') .verticalWind) (g a)]))
      (Effect.when (vars.isEmpty || vars.contains LayerType.verticalCloud.name ||
          vars.contains LayerType.verticalWind.name)
        (Effect.need r fun a => Seq [Effect.when (variableChosen vars .verticalCloud) (f a),
          Effect.when (variableChosen vars .verticalWind) (g a)]))
      (Effect.when (vars'.isEmpty || vars'.contains LayerType.verticalCloud.name ||
          vars'.contains LayerType.verticalWind.name)
        (Effect.need r fun a => Seq [Effect.when (variableChosen vars' .verticalCloud) (f a),
          Effect.when (variableChosen vars' .verticalWind) (g a)])) := by
  unfold Splits
  simp only [can_when, vertical_cond, can_need, can_seq_cons, can_seq_nil, variableChosen_iff, chosenVar_append h h',
    and_true]
  generalize ChosenVar vars .verticalCloud = a
  generalize ChosenVar vars .verticalWind = b
  generalize ChosenVar vars' .verticalCloud = c
  generalize ChosenVar vars' .verticalWind = d
  constructor
  · intro hx
    refine ⟨fun hab => ?_, fun hcd => ?_⟩
    · obtain ⟨x, hr, p, q⟩ := hx (hab.imp .inl .inl)
      exact ⟨x, hr, fun h => p (.inl h), fun h => q (.inl h)⟩
    · obtain ⟨x, hr, p, q⟩ := hx (hcd.imp .inr .inr)
      exact ⟨x, hr, fun h => p (.inr h), fun h => q (.inr h)⟩
  · rintro ⟨h1, h2⟩ hx
    by_cases hab : a ∨ b
    · obtain ⟨x, hr, p, q⟩ := h1 hab
      have key : (c → Can (f x)) ∧ (d → Can (g x)) := by
        refine ⟨fun hc => ?_, fun hd => ?_⟩
        · obtain ⟨y, hr', p', q'⟩ := h2 (.inl hc)
          rw [hr] at hr'
          cases hr'
          exact p' hc
        · obtain ⟨y, hr', p', q'⟩ := h2 (.inr hd)
          rw [hr] at hr'
          cases hr'
          exact q' hd
      exact ⟨x, hr, fun h => h.elim p key.1, fun h => h.elim q key.2⟩
    · obtain ⟨y, hr', p', q'⟩ := h2
        (hx.elim (fun h => h.elim (fun h => absurd (.inl h) hab) .inl) fun h => h.elim (fun h => absurd (.inr h) hab) .inr)
      exact ⟨y, hr', fun h => h.elim (fun h => absurd (.inl h) hab) p', fun h => h.elim (fun h => absurd (.inr h) hab) q'⟩

theorem splits_dwd_vars (m : Libm) (w : World) (dirs : Text → Bool) {vars vars' : List Text} (filter : List Nat)
    (h : vars ≠ []) (h' : vars' ≠ []) (run : Run) :
    Splits (Dwd.renderRun m w dirs (vars ++ vars') filter run) (Dwd.renderRun m w dirs vars filter run)
      (Dwd.renderRun m w dirs vars' filter run) := by
  have key : ∀ {e : Effect} (v : LayerType), Splits (Effect.when (variableChosen (vars ++ vars') v) e)
      (Effect.when (variableChosen vars v) e) (Effect.when (variableChosen vars' v) e) := by
    intro e v
    rw [variableChosen_append h h']
    exact .when_or
  exact (key _).seq_cons ((key _).seq_cons ((key _).seq_cons ((vertical_splits h h').seq_cons .seq_nil)))

theorem splits_swiss_vars (m : Libm) (w : World) (s : Swiss.Service) (cal : Swiss.Calendar) (dirs : Text → Bool)
    {vars vars' : List Text} (filter : List Nat) (h : vars ≠ []) (h' : vars' ≠ []) (grid : UnstructuredGrid)
    (url : Text) (t : Instant) :
    Splits (Swiss.renderRun m w s cal dirs (vars ++ vars') filter grid url t)
      (Swiss.renderRun m w s cal dirs vars filter grid url t) (Swiss.renderRun m w s cal dirs vars' filter grid url t) := by
  have key : ∀ {e : Effect} (v : LayerType), Splits (Effect.when (variableChosen (vars ++ vars') v) e)
      (Effect.when (variableChosen vars v) e) (Effect.when (variableChosen vars' v) e) := by
    intro e v
    rw [variableChosen_append h h']
    exact .when_or
  exact (key _).seq_cons ((key _).seq_cons ((key _).seq_cons ((vertical_splits h h').seq_cons .seq_nil)))

/-- C142: the call for all variables can succeed exactly if the calls for the parts can. -/
theorem C142_variables_possible (e : Environment) (model : Text) (vars₁ vars₂ : List Text) (filter : List Nat)
    (n₁ : vars₁ ≠ []) (n₂ : vars₂ ≠ []) :
    (∃ tr, mainEffect e model (vars₁ ++ vars₂) filter tr .done) ↔
      (∃ tr, mainEffect e model vars₁ filter tr .done) ∧ ∃ tr, mainEffect e model vars₂ filter tr .done := by
  show Splits _ _ _
  unfold mainEffect
  split
  · exact .need fun _ => .need fun _ => .need fun _ => .need fun _ => .need fun _ => .need fun _ =>
      splits_swiss_vars _ _ _ _ _ _ n₁ n₂ _ _ _
  · split
    · exact .need fun _ => splits_dwd_vars _ _ _ _ n₁ n₂ _
    · split
      · exact .need fun _ => splits_dwd_vars _ _ _ _ n₁ n₂ _
      · exact ⟨fun h => ⟨h, h⟩, fun h => h.1⟩

end Verif.Props
