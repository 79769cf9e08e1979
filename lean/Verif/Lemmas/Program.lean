import Verif.Model.Program
import Verif.Props.Render

/-!
# Composing effects
-/

namespace Verif

open MapTileRenderer (Outcome Seq)

/-- An effect writes nothing but the given files, and all of them if it succeeds. -/
structure Effect.Writes (e : Effect) (files : Write → Prop) : Prop where
  only : ∀ tr o, e tr o → ∀ w ∈ tr, files w
  all : ∀ tr, e tr .done → ∀ w, files w → w ∈ tr

/-- An effect can succeed only under a condition, and then always does. -/
structure Effect.Succeeds (e : Effect) (cond : Prop) : Prop where
  only : ∀ tr, e tr .done → cond
  can : cond → ∃ tr, e tr .done
  always : cond → ∀ tr o, e tr o → o = .done

namespace Effect

theorem Writes.congr {e : Effect} {f g : Write → Prop} (h : e.Writes f) (hfg : ∀ w, f w ↔ g w) : e.Writes g :=
  ⟨fun tr o ht w hw => (hfg w).mp (h.only tr o ht w hw), fun tr ht w hw => h.all tr ht w ((hfg w).mpr hw)⟩

theorem Succeeds.congr {e : Effect} {p q : Prop} (h : e.Succeeds p) (hpq : p ↔ q) : e.Succeeds q :=
  ⟨fun tr ht => hpq.mp (h.only tr ht), fun hq => h.can (hpq.mpr hq), fun hq => h.always (hpq.mpr hq)⟩

theorem Writes.need {α : Type} {r : Res α} {f : α → Effect} {files : α → Write → Prop}
    (h : ∀ a, r = .ok a → (f a).Writes (files a)) :
    (Effect.need r f).Writes fun w => ∃ a, r = .ok a ∧ files a w := by
  unfold Effect.need
  cases r with
  | ok a =>
    have h := h a rfl
    refine ⟨fun tr o ht w hw => ⟨a, rfl, h.only tr o ht w hw⟩, fun tr ht w hw => ?_⟩
    obtain ⟨_, e, hw⟩ := hw
    cases e
    exact h.all tr ht w hw
  | err =>
    refine ⟨fun tr o ht w hw => ?_, fun tr ht w hw => ?_⟩
    · rw [ht.1] at hw; cases hw
    · cases ht.2
  | panic =>
    refine ⟨fun tr o ht w hw => ?_, fun tr ht w hw => ?_⟩
    · rw [ht.1] at hw; cases hw
    · cases ht.2

theorem Succeeds.need {α : Type} {r : Res α} {f : α → Effect} {cond : α → Prop}
    (h : ∀ a, r = .ok a → (f a).Succeeds (cond a)) : (Effect.need r f).Succeeds (∃ a, r = .ok a ∧ cond a) := by
  unfold Effect.need
  cases r with
  | ok a =>
    have h := h a rfl
    refine ⟨fun tr ht => ⟨a, rfl, h.only tr ht⟩, ?_, ?_⟩
    · rintro ⟨_, e, hc⟩; cases e; exact h.can hc
    · rintro ⟨_, e, hc⟩; cases e; exact h.always hc
  | err =>
    refine ⟨fun tr ht => ?_, ?_, ?_⟩
    · cases ht.2
    · rintro ⟨_, e, _⟩; cases e
    · rintro ⟨_, e, _⟩; cases e
  | panic =>
    refine ⟨fun tr ht => ?_, ?_, ?_⟩
    · cases ht.2
    · rintro ⟨_, e, _⟩; cases e
    · rintro ⟨_, e, _⟩; cases e

theorem Writes.when {c : Bool} {e : Effect} {files : Write → Prop} (h : c = true → e.Writes files) :
    (Effect.when c e).Writes fun w => c = true ∧ files w := by
  unfold Effect.when
  cases c with
  | true =>
    have h := h rfl
    exact ⟨fun tr o ht w hw => ⟨rfl, h.only tr o ht w hw⟩, fun tr ht w hw => h.all tr ht w hw.2⟩
  | false =>
    refine ⟨fun tr o ht w hw => ?_, fun tr ht w hw => absurd hw.1 (by simp)⟩
    simp only [Bool.false_eq_true, if_false] at ht
    rw [ht.1] at hw; cases hw

theorem Succeeds.when {c : Bool} {e : Effect} {cond : Prop} (h : c = true → e.Succeeds cond) :
    (Effect.when c e).Succeeds (c = true → cond) := by
  unfold Effect.when
  cases c with
  | true =>
    have h := h rfl
    exact ⟨fun tr ht _ => h.only tr ht, fun hc => h.can (hc rfl), fun hc => h.always (hc rfl)⟩
  | false => exact ⟨fun tr _ h => absurd h (by simp), fun _ => ⟨[], rfl, rfl⟩, fun _ tr o h => h.2⟩

theorem Writes.seq_nil : Effect.Writes (Seq []) fun _ => False := by
  refine ⟨fun tr o h w hw => ?_, fun _ _ _ h => h.elim⟩
  cases h; cases hw

theorem Writes.seq_cons {e : Effect} {es : List Effect} {f g : Write → Prop} (h : e.Writes f)
    (hs : Effect.Writes (Seq es) g) : Effect.Writes (Seq (e :: es)) fun w => f w ∨ g w := by
  refine ⟨fun tr o ht w hw => ?_, fun tr ht w hw => ?_⟩
  · cases ht with
    | cons h1 h2 =>
      rcases List.mem_append.mp hw with hw | hw
      · exact .inl (h.only _ _ h1 w hw)
      · exact .inr (hs.only _ _ h2 w hw)
    | stop h1 _ => exact .inl (h.only _ _ h1 w hw)
  · cases ht with
    | cons h1 h2 => exact List.mem_append.mpr (hw.imp (h.all _ h1 w) (hs.all _ h2 w))
    | stop _ ho => exact absurd rfl ho

theorem Succeeds.seq_nil : Effect.Succeeds (Seq []) True := by
  refine ⟨fun _ _ => trivial, fun _ => ⟨[], .nil⟩, fun _ tr o h => ?_⟩
  cases h; rfl

theorem Succeeds.seq_cons {e : Effect} {es : List Effect} {p q : Prop} (h : e.Succeeds p)
    (hs : Effect.Succeeds (Seq es) q) : Effect.Succeeds (Seq (e :: es)) (p ∧ q) := by
  refine ⟨fun tr ht => ?_, fun hc => ?_, fun hc tr o ht => ?_⟩
  · cases ht with
    | cons h1 h2 => exact ⟨h.only _ h1, hs.only _ h2⟩
    | stop _ ho => exact absurd rfl ho
  · obtain ⟨t1, h1⟩ := h.can hc.1
    obtain ⟨t2, h2⟩ := hs.can hc.2
    exact ⟨_, .cons h1 h2⟩
  · cases ht with
    | cons h1 h2 => exact hs.always hc.2 _ _ h2
    | stop h1 ho => exact absurd (h.always hc.1 _ _ h1) ho

/-- The effect can succeed, and does. -/
def Sure (e : Effect) : Prop := (∃ tr, e tr .done) ∧ ∀ tr o, e tr o → o = .done

theorem Succeeds.sure {e : Effect} {p : Prop} (h : e.Succeeds p) (hp : p) : Sure e := ⟨h.can hp, h.always hp⟩

theorem Sure.succeeds {e : Effect} (h : Sure e) : e.Succeeds True :=
  ⟨fun _ _ => trivial, fun _ => h.1, fun _ => h.2⟩

theorem Sure.need {α : Type} {r : Res α} {f : α → Effect} {a : α} (hr : r = .ok a) (h : Sure (f a)) :
    Sure (Effect.need r f) := by subst hr; exact h

theorem Sure.when {c : Bool} {e : Effect} (h : c = true → Sure e) : Sure (Effect.when c e) :=
  (Effect.Succeeds.when (cond := True) fun hc => (h hc).succeeds).sure fun _ => trivial

theorem Sure.seq {es : List Effect} (h : ∀ e ∈ es, Sure e) : Sure (Seq es) := by
  induction es with
  | nil => exact Effect.Succeeds.seq_nil.sure trivial
  | cons e es ih =>
    exact (Effect.Succeeds.seq_cons (h e (by simp)).succeeds (ih fun e he => h e (by simp [he])).succeeds).sure
      ⟨trivial, trivial⟩

theorem need_congr {α : Type} {r r' : Res α} {f f' : α → Effect} (hr : r = r')
    (h : ∀ a, r = .ok a → f a = f' a) : Effect.need r f = Effect.need r' f' := by
  subst hr
  unfold Effect.need
  cases r with
  | ok a => exact h a rfl
  | err => rfl
  | panic => rfl

theorem when_congr {c : Bool} {e e' : Effect} (h : c = true → e = e') : Effect.when c e = Effect.when c e' := by
  unfold Effect.when
  cases c with
  | true => simp only [if_true]; exact h rfl
  | false => rfl

end Effect

open Props

theorem writes_renderSteps (m : Libm) (run : Run) (dirs : Text → Bool) (steps : List RunStep) (filter : List Nat)
    (read : RunStep → Res Layers) : Effect.Writes (renderSteps m run dirs steps filter read)
    fun w => Expected m run steps filter read w.path w.content :=
  ⟨fun tr o h w hw => C53_only_chosen m run dirs steps filter read tr o h w hw,
    fun _ h w hw => (done_writes h w).mpr hw⟩

theorem succeeds_renderSteps (m : Libm) (run : Run) (dirs : Text → Bool) (steps : List RunStep) (filter : List Nat)
    (read : RunStep → Res Layers) : Effect.Succeeds (renderSteps m run dirs steps filter read)
    (∀ s ∈ steps, Chosen filter s → ∃ l, read s = .ok l ∧ CanDraw m run.model.zoomRange l) := by
  obtain ⟨h1, h2⟩ := C53_succeeds_iff m run dirs steps filter read
  exact ⟨fun tr h => h1.mp ⟨tr, h⟩, h1.mpr, h2⟩

theorem Effect.Sure.steps {m : Libm} {run : Run} {dirs : Text → Bool} {steps : List RunStep} {filter : List Nat}
    {read : RunStep → Res Layers} (h : ∀ s ∈ steps, ∃ l, read s = .ok l ∧ CanDraw m run.model.zoomRange l) :
    Effect.Sure (renderSteps m run dirs steps filter read) :=
  (succeeds_renderSteps m run dirs steps filter read).sure fun s hs _ => h s hs

theorem parTry_mono {α β : Type} {work work' : α → List β → Outcome → Prop} {items : List α}
    (h : ∀ a ∈ items, ∀ tr o, work a tr o → work' a tr o) {tr : List β} {o : Outcome} (ht : ParTry work items tr o) :
    ParTry work' items tr o := by
  cases ht with
  | mk tagged ends o tags ran skipped panicked failed =>
    exact .mk tagged ends o tags (fun i hi oi he => h _ (List.getElem_mem hi) _ _ (ran i hi oi he)) skipped
      panicked failed

theorem renderSteps_congr {m : Libm} {run : Run} {dirs : Text → Bool} {steps : List RunStep} {filter : List Nat}
    {read read' : RunStep → Res Layers} (h : ∀ s ∈ steps, Chosen filter s → read s = read' s) :
    renderSteps m run dirs steps filter read = renderSteps m run dirs steps filter read' := by
  have key : ∀ s ∈ steps, ∀ tr o, runStep m run dirs filter read s tr o ↔ runStep m run dirs filter read' s tr o := by
    intro s hs tr o
    by_cases hc : Chosen filter s
    · rw [step_chosen hc, step_chosen hc, h s hs hc]
    · unfold runStep
      rw [if_neg (by rw [selected_iff]; exact hc), if_neg (by rw [selected_iff]; exact hc)]
  funext tr o
  exact propext ⟨parTry_mono fun s hs tr o => (key s hs tr o).mp, parTry_mono fun s hs tr o => (key s hs tr o).mpr⟩

end Verif
