import Verif.Model.Progress
import Verif.Props.Turns
import Verif.Props.RepeatDemo

/-!
# Property C188: a call reports truthfully what it does
-/

namespace Verif.Props

open Verif MapTileRenderer

/-- The message that the rendering of a variable begins. -/
def beginning : LayerType → Message
  | .cloudPrecip => .text "rendering cloud & precipitation forecast...".toList
  | .wind10m => .text "rendering wind 10m forecast...".toList
  | .temp2m => .text "rendering temperature 2m forecast...".toList
  | .verticalCloud => .text "rendering vertical cloud forecast...".toList
  | .verticalWind => .text "rendering vertical wind forecast...".toList
  | .weather => .text "rendering weather forecast...".toList

/-- The message that the rendering of a variable is finished. -/
def completion : LayerType → Message
  | .cloudPrecip => .text "finished rendering cloud & precipitation forecast".toList
  | .wind10m => .text "finished rendering wind 10m forecast".toList
  | .temp2m => .text "finished rendering temperature 2m forecast".toList
  | .verticalCloud => .text "finished rendering vertical cloud forecast".toList
  | .verticalWind => .text "finished rendering vertical wind forecast".toList
  | .weather => .text "finished rendering weather forecast".toList

/-- The files among what happens. -/
def filesWritten : List Happening → List Write
  | [] => []
  | .said _ :: l => filesWritten l
  | .wrote w :: l => w :: filesWritten l

/-! ## Stories and what they write -/

theorem filesWritten_append (a b : List Happening) : filesWritten (a ++ b) = filesWritten a ++ filesWritten b := by
  induction a with
  | nil => rfl
  | cons x a ih => cases x <;> simp [filesWritten, ih]

theorem filesWritten_map (ws : List Write) : filesWritten (ws.map .wrote) = ws := by
  induction ws with
  | nil => rfl
  | cons x a ih => simp [filesWritten, ih]

/-- A story tells what an effect does. -/
structure Tells (d : Story) (e : Effect) : Prop where
  fwd : ∀ tr o, d tr o → e (filesWritten tr) o
  bwd : ∀ ws o, e ws o → ∃ tr, d tr o ∧ filesWritten tr = ws

namespace Tells

theorem of (e : Effect) : Tells (Story.of e) e where
  fwd := by rintro _ o ⟨ws, h, rfl⟩; rwa [filesWritten_map]
  bwd := fun ws _ h => ⟨ws.map .wrote, ⟨ws, h, rfl⟩, filesWritten_map ws⟩

theorem said (m : Message) : Tells (Story.said m) skip where
  fwd := by rintro _ _ ⟨rfl, rfl⟩; exact ⟨rfl, rfl⟩
  bwd := by rintro _ _ ⟨rfl, rfl⟩; exact ⟨_, ⟨rfl, rfl⟩, rfl⟩

theorem need {α : Type} (r : Res α) {f : α → Story} {g : α → Effect} (h : ∀ a, r = .ok a → Tells (f a) (g a)) :
    Tells (Story.need r f) (Effect.need r g) := by
  cases r with
  | ok a => exact h a rfl
  | err => exact ⟨by rintro _ _ ⟨rfl, rfl⟩; exact ⟨rfl, rfl⟩, by rintro _ _ ⟨rfl, rfl⟩; exact ⟨_, ⟨rfl, rfl⟩, rfl⟩⟩
  | panic => exact ⟨by rintro _ _ ⟨rfl, rfl⟩; exact ⟨rfl, rfl⟩, by rintro _ _ ⟨rfl, rfl⟩; exact ⟨_, ⟨rfl, rfl⟩, rfl⟩⟩

theorem when (c : Bool) {d : Story} {e : Effect} (h : Tells d e) : Tells (Story.when c d) (Effect.when c e) := by
  cases c with
  | true => exact h
  | false => exact ⟨by rintro _ _ ⟨rfl, rfl⟩; exact ⟨rfl, rfl⟩, by rintro _ _ ⟨rfl, rfl⟩; exact ⟨_, ⟨rfl, rfl⟩, rfl⟩⟩

theorem nil : Tells (Seq []) (Seq []) where
  fwd := by rintro _ _ h; cases h; exact .nil
  bwd := by rintro _ _ h; cases h; exact ⟨[], .nil, rfl⟩

theorem cons {d : Story} {e : Effect} {ds : List Story} {es : List Effect} (h : Tells d e) (hs : Tells (Seq ds) (Seq es)) :
    Tells (Seq (d :: ds)) (Seq (e :: es)) where
  fwd := by
    intro _ _ t
    cases t with
    | cons t1 t2 => rw [filesWritten_append]; exact .cons (h.fwd _ _ t1) (hs.fwd _ _ t2)
    | stop t1 ho => exact .stop (h.fwd _ _ t1) ho
  bwd := by
    intro _ _ t
    cases t with
    | cons t1 t2 =>
      obtain ⟨a, a1, a2⟩ := h.bwd _ _ t1
      obtain ⟨b, b1, b2⟩ := hs.bwd _ _ t2
      exact ⟨a ++ b, .cons a1 b1, by rw [filesWritten_append, a2, b2]⟩
    | stop t1 ho =>
      obtain ⟨a, a1, a2⟩ := h.bwd _ _ t1
      exact ⟨a, .stop a1 ho, a2⟩

/-- Messages write nothing. -/
theorem note {m : Message} {ds : List Story} {es : List Effect} (h : Tells (Seq ds) (Seq es)) :
    Tells (Seq (Story.said m :: ds)) (Seq es) := by
  rw [← seq_skip]
  exact (said m).cons h

theorem one {d : Story} {e : Effect} (h : Tells d e) : Tells (Seq [d]) (Seq [e]) := h.cons nil

theorem around (a b : Text) (e : Effect) : Tells (Story.around a b e) e := by
  have h : Tells (Story.around a b e) (Seq [e]) := note ((of e).cons (note nil))
  rwa [seq_one] at h

/-- The last of several parts. -/
theorem last {ds : List Story} {e : Effect} (h : Tells (Seq ds) (Seq [e])) : Tells (Seq ds) e := by rwa [seq_one] at h

end Tells

/-! ## Every happening in turn -/

/-- At each point of a story, what happens fits what came before. -/
def FitsStory (Q : List Happening → Happening → Prop) (d : Story) : Prop :=
  ∀ tr o, d tr o → ∀ before x after, tr = before ++ x :: after → Q before x

namespace FitsStory

variable {Q : List Happening → Happening → Prop}

theorem said {m : Message} (h : Q [] (.said m)) : FitsStory Q (Story.said m) := by
  rintro _ _ ⟨rfl, rfl⟩ before x after e
  cases before with
  | nil => cases e; exact h
  | cons y l => simp at e

theorem need {α : Type} {r : Res α} {f : α → Story} (h : ∀ a, r = .ok a → FitsStory Q (f a)) : FitsStory Q (Story.need r f) := by
  cases r with
  | ok a => exact h a rfl
  | err => rintro _ _ ⟨rfl, rfl⟩ before x after e; simp at e
  | panic => rintro _ _ ⟨rfl, rfl⟩ before x after e; simp at e

theorem when {c : Bool} {d : Story} (h : c = true → FitsStory Q d) : FitsStory Q (Story.when c d) := by
  cases c with
  | true => exact h rfl
  | false => rintro _ _ ⟨rfl, rfl⟩ before x after e; simp at e

theorem nil : FitsStory Q (Seq []) := by
  rintro _ _ h before x after e
  cases h
  simp at e

theorem cons (hq : ∀ a b x, Q b x → Q (a ++ b) x) {d : Story} {ds : List Story} (h : FitsStory Q d) (hs : FitsStory Q (Seq ds)) :
    FitsStory Q (Seq (d :: ds)) := by
  intro _ _ t before x after e
  cases t with
  | cons t1 t2 =>
    rcases List.append_eq_append_iff.mp e with ⟨l, rfl, e2⟩ | ⟨l, e1, e2⟩
    · exact hq _ _ _ (hs _ _ t2 l x after e2)
    · cases l with
      | nil =>
        rw [List.append_nil] at e1
        subst e1
        have := hs _ _ t2 [] x after e2.symm
        simpa using hq _ [] x this
      | cons y l =>
        obtain ⟨rfl, -⟩ := List.cons.inj e2
        exact h _ _ t1 before x l e1
  | stop t1 ho => exact h _ _ t1 before x after e

/-- A part between two messages. -/
theorem around {a b : Text} {e : Effect} (h1 : Q [] (.said (.text a)))
    (h2 : ∀ ws o, e ws o → ∀ u w v, ws = u ++ w :: v → Q (.said (.text a) :: u.map .wrote) (.wrote w))
    (h3 : ∀ ws, e ws .done → Q (.said (.text a) :: ws.map .wrote) (.said (.text b))) : FitsStory Q (Story.around a b e) := by
  have mid : ∀ ws o, e ws o → ∀ l x after, ws.map Happening.wrote = l ++ x :: after → Q (.said (.text a) :: l) x := by
    intro ws o he l x after eq
    obtain ⟨u, v, rfl, rfl, e2⟩ := List.map_eq_append_iff.mp eq
    obtain ⟨w, v', rfl, rfl, -⟩ := List.map_eq_cons_iff.mp e2
    exact h2 _ o he u w v' rfl
  intro _ _ t before x after eq
  cases t with
  | stop t1 ho => obtain ⟨-, rfl⟩ := t1; exact absurd rfl ho
  | cons t1 t2 =>
    obtain ⟨rfl, -⟩ := t1
    cases before with
    | nil => cases eq; exact h1
    | cons y l =>
      rw [List.singleton_append, List.cons_append] at eq
      obtain ⟨rfl, eq2⟩ := List.cons.inj eq
      clear eq
      cases t2 with
      | stop t3 ho =>
        obtain ⟨ws, he, rfl⟩ := t3
        exact mid ws _ he l x after eq2
      | cons t3 t4 =>
        obtain ⟨ws, he, rfl⟩ := t3
        cases t4 with
        | stop t5 ho => obtain ⟨-, rfl⟩ := t5; exact absurd rfl ho
        | cons t5 t6 =>
          obtain ⟨rfl, -⟩ := t5
          cases t6
          rw [List.append_nil] at eq2
          rcases List.append_eq_append_iff.mp eq2 with ⟨k, rfl, e2⟩ | ⟨k, e1, e2⟩
          · cases k with
            | nil =>
              cases e2
              rw [List.append_nil]
              exact h3 ws he
            | cons z k => simp at e2
          · cases k with
            | nil =>
              rw [List.append_nil] at e1
              cases e2
              rw [← e1]
              exact h3 ws he
            | cons z k =>
              obtain ⟨rfl, -⟩ := List.cons.inj e2
              exact mid ws _ he l x k e1

theorem mono {Q' : List Happening → Happening → Prop} (h : ∀ b x, Q b x → Q' b x) {d : Story} (hd : FitsStory Q d) : FitsStory Q' d :=
  fun tr o t before x after e => h _ _ (hd tr o t before x after e)

end FitsStory

/-! ## C188 -/

/-- A call with messages is the call: leaving out the messages gives what the program does, and all of it. -/
theorem dwd_tells (m : Libm) (w : World) (dirs : Text → Bool) (vars : List Text) (filter : List Nat) (run : Run) :
    Tells (Dwd.runStory m w dirs vars filter run) (Dwd.renderRun m w dirs vars filter run) :=
  .note (.cons (.when _ (.around ..)) (.cons (.when _ (.around ..)) (.cons (.when _ (.around ..))
    (.one (.when _ (.need _ fun _ _ => .cons (.when _ (.around ..)) (.one (.when _ (.around ..)))))))))

theorem swiss_tells (m : Libm) (w : World) (s : Swiss.Service) (cal : Swiss.Calendar) (dirs : Text → Bool) (vars : List Text)
    (filter : List Nat) (grid : UnstructuredGrid) (url : Text) (t : Instant) :
    Tells (Swiss.runStory m w s cal dirs vars filter grid url t) (Swiss.renderRun m w s cal dirs vars filter grid url t) :=
  .note (.cons (.when _ (.around ..)) (.cons (.when _ (.around ..)) (.cons (.when _ (.around ..))
    (.one (.when _ (.last (.note (.one (.need _ fun _ _ =>
      .note (.cons (.when _ (.around ..)) (.one (.when _ (.around ..)))))))))))))

theorem dwd_latest_tells (m : Libm) (w : World) (dirs : Text → Bool) (today now : Date) (available : Text → Bool)
    (model : FcModel) (vars : List Text) (filter : List Nat) :
    Tells (Dwd.latestStory m w dirs today now available model vars filter)
      (Dwd.renderLatest m w dirs today now available model vars filter) :=
  .last (.note (.note (.one (.need _ fun run _ => dwd_tells m w dirs vars filter run))))

/-- C188: leaving out its messages, a call does what the theorems on files say, and nothing else. -/
theorem C188_same (e : Environment) (model : Text) (vars : List Text) (filter : List Nat) :
    (∀ tr o, mainStory e model vars filter tr o → mainEffect e model vars filter (filesWritten tr) o) ∧
    ∀ ws o, mainEffect e model vars filter ws o → ∃ tr, mainStory e model vars filter tr o ∧ filesWritten tr = ws := by
  suffices h : Tells (mainStory e model vars filter) (mainEffect e model vars filter) from ⟨h.fwd, h.bwd⟩
  unfold mainStory mainEffect
  split
  · exact .last (.note (.note (.one (.need _ fun _ _ => .need _ fun _ _ => .need _ fun _ _ => .need _ fun _ _ =>
      .last (.note (.note (.one (.need _ fun _ _ => .need _ fun _ _ => swiss_tells ..))))))))
  split
  · exact dwd_latest_tells ..
  split
  · exact dwd_latest_tells ..
  · exact ⟨by rintro _ _ ⟨rfl, rfl⟩; exact ⟨rfl, rfl⟩, by rintro _ _ ⟨rfl, rfl⟩; exact ⟨_, ⟨rfl, rfl⟩, rfl⟩⟩

/-- What may happen after what: files only after the beginning of their variable, with nothing but files in between; the
completion of the first three variables only after all their files; the beginning only of chosen variables. -/
def Truthful (vars : List Text) (part : LayerType → Effect) (before : List Happening) : Happening → Prop
  | .wrote w => ∃ v ∈ chosenTurns vars, ∃ (a : List Happening) (b : List Write), before = a ++ .said (beginning v) :: b.map .wrote ∧ ∃ ws o, part v ws o ∧ w ∈ ws
  | .said m => m ≠ completion .verticalWind ∧ (∀ v ∈ turns, m = beginning v → v ∈ chosenTurns vars) ∧
      ∀ v ∈ [LayerType.cloudPrecip, .wind10m, .temp2m], m = completion v →
        v ∈ chosenTurns vars ∧ ∃ (a : List Happening) (ws : List Write), before = a ++ .said (beginning v) :: ws.map .wrote ∧ part v ws .done

theorem truthful_more {vars : List Text} {part : LayerType → Effect} (a b : List Happening) (x : Happening)
    (h : Truthful vars part b x) : Truthful vars part (a ++ b) x := by
  cases x with
  | wrote w =>
    obtain ⟨v, hv, c, d, rfl, h⟩ := h
    exact ⟨v, hv, a ++ c, d, by rw [List.append_assoc], h⟩
  | said m =>
    refine ⟨h.1, h.2.1, fun v hv e => ?_⟩
    obtain ⟨h1, c, ws, rfl, h3⟩ := h.2.2 v hv e
    exact ⟨h1, a ++ c, ws, by rw [List.append_assoc], h3⟩

theorem beginning_inj : ∀ v ∈ turns, ∀ v' ∈ turns, beginning v = beginning v' → v = v' := by decide +kernel

theorem beginning_completion : ∀ v v', beginning v ≠ completion v' := by
  intro v v'
  cases v <;> cases v' <;> decide +kernel

/-- One variable. -/
theorem truthful_part {vars : List Text} {part : LayerType → Effect} (v : LayerType) (hv : v ∈ turns)
    (hc : variableChosen vars v = true) {a b : Text} (ha : beginning v = .text a)
    (hb : completion v = .text b ∨ .text b = completion .verticalCloud) {e : Effect} (he : ∀ ws o, e ws o → part v ws o)
    (hb' : Message.text b ≠ completion .verticalWind)
    (hb2 : ∀ u ∈ [LayerType.cloudPrecip, .wind10m, .temp2m], Message.text b = completion u → u = v) :
    FitsStory (Truthful vars part) (Story.around a b e) := by
  have hm : v ∈ chosenTurns vars := by
    rw [chosenTurns_eq]; exact List.mem_filter.mpr ⟨hv, hc⟩
  refine FitsStory.around ?_ ?_ ?_
  · rw [← ha]
    refine ⟨beginning_completion v _, fun u hu e => ?_, fun u hu e => absurd e (beginning_completion v u)⟩
    rw [← beginning_inj v hv u hu e]; exact hm
  · intro ws o h u w x e
    rw [← ha]
    exact ⟨v, hm, [], u, rfl, ws, o, he _ _ h, by rw [e]; simp⟩
  · intro ws h
    rw [← ha]
    refine ⟨hb', fun u _ e => ?_, fun u hu e => ?_⟩
    · rcases hb with hb | hb
      · rw [← hb] at e; exact absurd e.symm (beginning_completion u v)
      · rw [hb] at e; exact absurd e.symm (beginning_completion u _)
    · obtain rfl := hb2 u hu e
      exact ⟨hm, [], ws, rfl, he _ _ h⟩

theorem truthful_said {vars : List Text} {part : LayerType → Effect} {m : Message} (h : ∀ v, m ≠ beginning v ∧ m ≠ completion v) :
    FitsStory (Truthful vars part) (Story.said m) :=
  FitsStory.said ⟨(h _).2, fun v _ e => absurd e (h v).1, fun v _ e => absurd e (h v).2⟩

theorem runFound_other (run : Run) (v : LayerType) : Message.runFound run ≠ beginning v ∧ Message.runFound run ≠ completion v := by
  cases v <;> exact ⟨by simp [beginning], by simp [completion]⟩

theorem timeFound_other (t : Instant) (v : LayerType) : Message.timeFound t ≠ beginning v ∧ Message.timeFound t ≠ completion v := by
  cases v <;> exact ⟨by simp [beginning], by simp [completion]⟩

theorem dwd_truthful (m : Libm) (w : World) (dirs : Text → Bool) (vars : List Text) (filter : List Nat) (run : Run) :
    FitsStory (Truthful vars fun v => Dwd.renderRun m w dirs [v.name] filter run) (Dwd.runStory m w dirs vars filter run) := by
  have single : ∀ v ∈ turns, Dwd.renderRun m w dirs [v.name] filter run = flowPart (Dwd.renderCloudPrecip m w dirs filter run)
      (Dwd.renderWind m w dirs filter run) (Dwd.renderTemp m w dirs filter run) (Dwd.readHhl w run run.model.verticalLevels)
      (Dwd.renderVerticalCloud m w dirs filter run) (Dwd.renderVerticalWind m w dirs filter run) v := by
    intro v hv
    refine (flow_parts [v.name] _ _ _ (Dwd.readHhl w run run.model.verticalLevels) (Dwd.renderVerticalCloud m w dirs filter run)
      (Dwd.renderVerticalWind m w dirs filter run)).trans ?_
    rw [chosenTurns_one v hv]
    exact seq_one _
  refine .cons truthful_more (truthful_said (runFound_other run)) (.cons truthful_more (.when fun h => ?_)
    (.cons truthful_more (.when fun h => ?_) (.cons truthful_more (.when fun h => ?_) (.cons truthful_more (.when fun _ =>
      .need fun hhl e => .cons truthful_more (.when fun h => ?_) (.cons truthful_more (.when fun h => ?_) .nil)) .nil))))
  · exact truthful_part .cloudPrecip (by decide) h rfl (.inl rfl) (fun ws o he => by rw [single _ (by decide)]; exact he)
      (by decide +kernel) (by decide +kernel)
  · exact truthful_part .wind10m (by decide) h rfl (.inl rfl) (fun ws o he => by rw [single _ (by decide)]; exact he)
      (by decide +kernel) (by decide +kernel)
  · exact truthful_part .temp2m (by decide) h rfl (.inl rfl) (fun ws o he => by rw [single _ (by decide)]; exact he)
      (by decide +kernel) (by decide +kernel)
  · exact truthful_part .verticalCloud (by decide) h rfl (.inl rfl) (fun ws o he => by
      rw [single _ (by decide)]; show Effect.need _ _ ws o; rw [e]; exact he) (by decide +kernel) (by decide +kernel)
  · exact truthful_part .verticalWind (by decide) h rfl (.inr rfl) (fun ws o he => by
      rw [single _ (by decide)]; show Effect.need _ _ ws o; rw [e]; exact he) (by decide +kernel) (by decide +kernel)

theorem swiss_truthful (m : Libm) (w : World) (s : Swiss.Service) (cal : Swiss.Calendar) (dirs : Text → Bool) (vars : List Text)
    (filter : List Nat) (grid : UnstructuredGrid) (url : Text) (t : Instant) :
    FitsStory (Truthful vars fun v => Swiss.renderRun m w s cal dirs [v.name] filter grid url t)
      (Swiss.runStory m w s cal dirs vars filter grid url t) := by
  have single : ∀ v ∈ turns, Swiss.renderRun m w s cal dirs [v.name] filter grid url t =
      flowPart (Swiss.renderCloudPrecip m w s cal dirs filter grid t) (Swiss.renderWind m w s cal dirs filter grid t)
      (Swiss.renderTemp m w s cal dirs filter grid t) (Swiss.readHhl w grid url)
      (Swiss.renderVerticalCloud m w s cal dirs filter grid t) (Swiss.renderVerticalWind m w s cal dirs filter grid t) v := by
    intro v hv
    refine (flow_parts [v.name] _ _ _ (Swiss.readHhl w grid url) (Swiss.renderVerticalCloud m w s cal dirs filter grid t)
      (Swiss.renderVerticalWind m w s cal dirs filter grid t)).trans ?_
    rw [chosenTurns_one v hv]
    exact seq_one _
  refine .cons truthful_more (truthful_said (timeFound_other t)) (.cons truthful_more (.when fun h => ?_)
    (.cons truthful_more (.when fun h => ?_) (.cons truthful_more (.when fun h => ?_) (.cons truthful_more (.when fun _ =>
      .cons truthful_more (truthful_said ?_) (.cons truthful_more (.need fun hhl e => .cons truthful_more (truthful_said ?_)
        (.cons truthful_more (.when fun h => ?_) (.cons truthful_more (.when fun h => ?_) .nil))) .nil)) .nil))))
  · exact truthful_part .cloudPrecip (by decide) h rfl (.inl rfl) (fun ws o he => by rw [single _ (by decide)]; exact he)
      (by decide +kernel) (by decide +kernel)
  · exact truthful_part .wind10m (by decide) h rfl (.inl rfl) (fun ws o he => by rw [single _ (by decide)]; exact he)
      (by decide +kernel) (by decide +kernel)
  · exact truthful_part .temp2m (by decide) h rfl (.inl rfl) (fun ws o he => by rw [single _ (by decide)]; exact he)
      (by decide +kernel) (by decide +kernel)
  · intro v; cases v <;> decide +kernel
  · intro v; cases v <;> decide +kernel
  · exact truthful_part .verticalCloud (by decide) h rfl (.inl rfl) (fun ws o he => by
      rw [single _ (by decide)]; show Effect.need _ _ ws o; rw [e]; exact he) (by decide +kernel) (by decide +kernel)
  · exact truthful_part .verticalWind (by decide) h rfl (.inr rfl) (fun ws o he => by
      rw [single _ (by decide)]; show Effect.need _ _ ws o; rw [e]; exact he) (by decide +kernel) (by decide +kernel)

theorem truthful_mono {vars : List Text} {p q : LayerType → Effect} (h : ∀ v ws o, p v ws o → q v ws o) (b : List Happening)
    (x : Happening) (ht : Truthful vars p b x) : Truthful vars q b x := by
  cases x with
  | wrote w =>
    obtain ⟨v, hv, c, d, e, ws, o, h1, h2⟩ := ht
    exact ⟨v, hv, c, d, e, ws, o, h _ _ _ h1, h2⟩
  | said m =>
    refine ⟨ht.1, ht.2.1, fun v hv e => ?_⟩
    obtain ⟨h1, c, ws, e2, h3⟩ := ht.2.2 v hv e
    exact ⟨h1, c, ws, e2, h _ _ _ h3⟩

theorem dwd_latest_truthful (m : Libm) (w : World) (dirs : Text → Bool) (today now : Date) (available : Text → Bool)
    (model : FcModel) (vars : List Text) (filter : List Nat) :
    FitsStory (Truthful vars fun v => Dwd.renderLatest m w dirs today now available model [v.name] filter)
      (Dwd.latestStory m w dirs today now available model vars filter) := by
  refine .cons truthful_more (truthful_said ?_) (.cons truthful_more (truthful_said ?_) (.cons truthful_more
    (.need fun run e => (dwd_truthful m w dirs vars filter run).mono (truthful_mono fun v ws o h => ?_)) .nil))
  · intro v; cases model <;> cases v <;> decide +kernel
  · intro v; cases v <;> decide +kernel
  · show Effect.need _ _ ws o
    rw [e]
    exact h

theorem main_truthful (e : Environment) (model : Text) (vars : List Text) (filter : List Nat) :
    FitsStory (Truthful vars fun v => mainEffect e model [v.name] filter) (mainStory e model vars filter) := by
  unfold mainStory mainEffect
  split
  · refine .cons truthful_more (truthful_said ?_) (.cons truthful_more (truthful_said ?_) (.cons truthful_more
      (.need fun assets e1 => .need fun hor e2 => .need fun grid e3 => .need fun vert e4 => .cons truthful_more (truthful_said ?_)
        (.cons truthful_more (truthful_said ?_) (.cons truthful_more (.need fun refTimes e5 => .need fun t e6 =>
          (swiss_truthful _ _ _ _ _ vars filter grid vert.href t).mono (truthful_mono fun v ws o h => ?_)) .nil))) .nil))
    · intro v; cases v <;> decide +kernel
    · intro v; cases v <;> decide +kernel
    · intro v; cases v <;> decide +kernel
    · intro v; cases v <;> decide +kernel
    · unfold Swiss.renderLatest
      rw [e1]; simp only [Effect.need]
      rw [e2]; simp only
      rw [e3]; simp only
      rw [e4]; simp only
      rw [e5]; simp only
      rw [e6]; exact h
  split
  · exact dwd_latest_truthful _ _ _ _ _ _ _ vars filter
  split
  · exact dwd_latest_truthful _ _ _ _ _ _ _ vars filter
  · rintro _ _ ⟨rfl, rfl⟩ before x after e; simp at e

/-- C188: whenever a file is written, the last message said that the rendering of a chosen variable begins, and the file is
one that the call for this variable alone writes. -/
theorem C188_files (e : Environment) (model : Text) (vars : List Text) (filter : List Nat) (tr : List Happening) (o : Outcome)
    (h : mainStory e model vars filter tr o) (before after : List Happening) (w : Write) (hw : tr = before ++ .wrote w :: after) :
    ∃ v ∈ chosenTurns vars, ∃ (a : List Happening) (b : List Write), before = a ++ .said (beginning v) :: b.map .wrote ∧
      ∃ ws o', mainEffect e model [v.name] filter ws o' ∧ w ∈ ws :=
  main_truthful e model vars filter tr o h before (.wrote w) after hw

/-- C188: when the rendering of clouds and precipitation, of the wind or of the temperature is reported as finished, what has
happened since the message that it begins is a complete and successful call for this variable. What is missing are the
variables aloft: see `C188_counterexample`. -/
theorem C188_finished_partial (e : Environment) (model : Text) (vars : List Text) (filter : List Nat) (tr : List Happening)
    (o : Outcome) (h : mainStory e model vars filter tr o) (v : LayerType) (hv : v = .cloudPrecip ∨ v = .wind10m ∨ v = .temp2m)
    (before after : List Happening) (hw : tr = before ++ .said (completion v) :: after) :
    v ∈ chosenTurns vars ∧ ∃ (a : List Happening) (ws : List Write), before = a ++ .said (beginning v) :: ws.map .wrote ∧ mainEffect e model [v.name] filter ws .done :=
  (main_truthful e model vars filter tr o h before _ after hw).2.2 v (by rcases hv with rfl | rfl | rfl <;> simp) rfl

/-! ## Calls that succeed -/

/-- What is said in a successful story. -/
def Reports (m : Message) (d : Story) : Prop := ∀ tr, d tr .done → .said m ∈ tr

namespace Reports

variable {m : Message}

theorem here {d : Story} {ds : List Story} (h : Reports m d) : Reports m (Seq (d :: ds)) := by
  intro tr t
  cases t with
  | cons t1 t2 => exact List.mem_append_left _ (h _ t1)
  | stop _ ho => exact absurd rfl ho

theorem later {d : Story} {ds : List Story} (h : Reports m (Seq ds)) : Reports m (Seq (d :: ds)) := by
  intro tr t
  cases t with
  | cons t1 t2 => exact List.mem_append_right _ (h _ t2)
  | stop _ ho => exact absurd rfl ho

theorem said : Reports m (Story.said m) := by rintro _ ⟨rfl, -⟩; simp

theorem need {α : Type} {r : Res α} {f : α → Story} (h : ∀ a, Reports m (f a)) : Reports m (Story.need r f) := by
  cases r with
  | ok a => exact h a
  | err => rintro _ ⟨-, h⟩; cases h
  | panic => rintro _ ⟨-, h⟩; cases h

theorem when {c : Bool} {d : Story} (hc : c = true) (h : Reports m d) : Reports m (Story.when c d) := by subst hc; exact h

theorem first {a b : Text} {e : Effect} : Reports (.text a) (Story.around a b e) := here said

theorem last {a b : Text} {e : Effect} : Reports (.text b) (Story.around a b e) := later (later (here said))

end Reports

/-- The message that is given at the end of a variable. -/
def reported : LayerType → Message
  | .verticalWind => completion .verticalCloud
  | v => completion v

theorem turn_chosen {vars : List Text} {v : LayerType} (h : v ∈ chosenTurns vars) : variableChosen vars v = true := by
  rw [chosenTurns_eq] at h; exact (List.mem_filter.mp h).2

theorem vertical_of {vars : List Text} {v : LayerType} (h : variableChosen vars v = true) (hv : v = .verticalCloud ∨ v = .verticalWind) :
    (vars.isEmpty || vars.contains LayerType.verticalCloud.name || vars.contains LayerType.verticalWind.name) = true := by
  rw [vertical_or]
  rcases hv with rfl | rfl <;> rw [h] <;> simp

theorem dwd_says (m : Libm) (w : World) (dirs : Text → Bool) (vars : List Text) (filter : List Nat) (run : Run) (v : LayerType)
    (hv : v ∈ chosenTurns vars) : Reports (beginning v) (Dwd.runStory m w dirs vars filter run) ∧
      Reports (reported v) (Dwd.runStory m w dirs vars filter run) := by
  have hc := turn_chosen hv
  have ht : v ∈ turns := by rw [chosenTurns_eq] at hv; exact (List.mem_filter.mp hv).1
  simp only [turns, List.mem_cons, List.not_mem_nil, or_false] at ht
  rcases ht with rfl | rfl | rfl | rfl | rfl
  · exact ⟨.later (.here (.when hc .first)), .later (.here (.when hc .last))⟩
  · exact ⟨.later (.later (.here (.when hc .first))), .later (.later (.here (.when hc .last)))⟩
  · exact ⟨.later (.later (.later (.here (.when hc .first)))), .later (.later (.later (.here (.when hc .last))))⟩
  · exact ⟨.later (.later (.later (.later (.here (.when (vertical_of hc (.inl rfl)) (.need fun _ => .here (.when hc .first))))))),
      .later (.later (.later (.later (.here (.when (vertical_of hc (.inl rfl)) (.need fun _ => .here (.when hc .last)))))))⟩
  · exact ⟨.later (.later (.later (.later (.here (.when (vertical_of hc (.inr rfl)) (.need fun _ => .later (.here (.when hc .first)))))))),
      .later (.later (.later (.later (.here (.when (vertical_of hc (.inr rfl)) (.need fun _ => .later (.here (.when hc .last))))))))⟩

theorem swiss_says (m : Libm) (w : World) (s : Swiss.Service) (cal : Swiss.Calendar) (dirs : Text → Bool) (vars : List Text)
    (filter : List Nat) (grid : UnstructuredGrid) (url : Text) (t : Instant) (v : LayerType) (hv : v ∈ chosenTurns vars) :
    Reports (beginning v) (Swiss.runStory m w s cal dirs vars filter grid url t) ∧
      Reports (reported v) (Swiss.runStory m w s cal dirs vars filter grid url t) := by
  have hc := turn_chosen hv
  have ht : v ∈ turns := by rw [chosenTurns_eq] at hv; exact (List.mem_filter.mp hv).1
  simp only [turns, List.mem_cons, List.not_mem_nil, or_false] at ht
  rcases ht with rfl | rfl | rfl | rfl | rfl
  · exact ⟨.later (.here (.when hc .first)), .later (.here (.when hc .last))⟩
  · exact ⟨.later (.later (.here (.when hc .first))), .later (.later (.here (.when hc .last)))⟩
  · exact ⟨.later (.later (.later (.here (.when hc .first)))), .later (.later (.later (.here (.when hc .last))))⟩
  · exact ⟨.later (.later (.later (.later (.here (.when (vertical_of hc (.inl rfl)) (.later (.here (.need fun _ =>
        .later (.here (.when hc .first)))))))))),
      .later (.later (.later (.later (.here (.when (vertical_of hc (.inl rfl)) (.later (.here (.need fun _ =>
        .later (.here (.when hc .last))))))))))⟩
  · exact ⟨.later (.later (.later (.later (.here (.when (vertical_of hc (.inr rfl)) (.later (.here (.need fun _ =>
        .later (.later (.here (.when hc .first))))))))))),
      .later (.later (.later (.later (.here (.when (vertical_of hc (.inr rfl)) (.later (.here (.need fun _ =>
        .later (.later (.here (.when hc .last)))))))))))⟩

theorem main_says (e : Environment) (model : Text) (hm : model ∈ ["icon-ch1".toList, "icon-d2".toList, "icon-eu".toList])
    (vars : List Text) (filter : List Nat) (v : LayerType) (hv : v ∈ chosenTurns vars) :
    Reports (beginning v) (mainStory e model vars filter) ∧ Reports (reported v) (mainStory e model vars filter) := by
  unfold mainStory
  split
  · exact ⟨.later (.later (.here (.need fun _ => .need fun _ => .need fun _ => .need fun _ => .later (.later (.here
        (.need fun _ => .need fun _ => (swiss_says _ _ _ _ _ vars filter _ _ _ v hv).1)))))),
      .later (.later (.here (.need fun _ => .need fun _ => .need fun _ => .need fun _ => .later (.later (.here
        (.need fun _ => .need fun _ => (swiss_says _ _ _ _ _ vars filter _ _ _ v hv).2))))))⟩
  split
  · exact ⟨.later (.later (.here (.need fun _ => (dwd_says _ _ _ vars filter _ v hv).1))),
      .later (.later (.here (.need fun _ => (dwd_says _ _ _ vars filter _ v hv).2)))⟩
  split
  · exact ⟨.later (.later (.here (.need fun _ => (dwd_says _ _ _ vars filter _ v hv).1))),
      .later (.later (.here (.need fun _ => (dwd_says _ _ _ vars filter _ v hv).2)))⟩
  · simp only [List.mem_cons, List.not_mem_nil, or_false] at hm
    tauto

/-- C188: a call that succeeds reports of each chosen variable that it begins, and of each but the wind aloft that it is
finished. No call reports the beginning of a variable that has not been chosen. -/
theorem C188_success (e : Environment) (model : Text) (hm : model ∈ ["icon-ch1".toList, "icon-d2".toList, "icon-eu".toList])
    (vars : List Text) (filter : List Nat) (tr : List Happening) (o : Outcome) (h : mainStory e model vars filter tr o)
    (v : LayerType) (hv : v ∈ turns) : (.said (beginning v) ∈ tr → v ∈ chosenTurns vars) ∧
      (o = .done → v ∈ chosenTurns vars → .said (beginning v) ∈ tr ∧ (v ≠ .verticalWind → .said (completion v) ∈ tr)) := by
  constructor
  · intro hb
    obtain ⟨before, after, e1⟩ := List.append_of_mem hb
    exact (main_truthful e model vars filter tr o h before _ after e1).2.1 v hv rfl
  · rintro rfl hc
    have := main_says e model hm vars filter v hc
    refine ⟨this.1 tr h, fun hn => ?_⟩
    have h2 := this.2 tr h
    have er : reported v = completion v := by cases v <;> first | exact absurd rfl hn | rfl
    rwa [er] at h2

/-- C188: the claim is violated for the variables aloft. No call ever reports that the wind aloft is finished; a successful call
for the wind aloft reports that the clouds aloft are finished, without having begun with them. -/
theorem C188_counterexample :
    (∀ (e : Environment) (model : Text) (vars : List Text) (filter : List Nat) (tr : List Happening) (o : Outcome),
      mainStory e model vars filter tr o → .said (completion .verticalWind) ∉ tr) ∧
    (∀ (e : Environment) (model : Text), model ∈ ["icon-ch1".toList, "icon-d2".toList, "icon-eu".toList] →
      ∀ (filter : List Nat) (tr : List Happening), mainStory e model [LayerType.verticalWind.name] filter tr .done →
        .said (completion .verticalCloud) ∈ tr ∧ .said (beginning .verticalCloud) ∉ tr) ∧
    ∃ (e : Environment) (tr : List Happening), mainStory e "icon-d2".toList [LayerType.verticalWind.name] [] tr .done := by
  refine ⟨fun e model vars filter tr o h hb => ?_, fun e model hm filter tr h => ⟨?_, fun hb => ?_⟩, ?_⟩
  · obtain ⟨before, after, e1⟩ := List.append_of_mem hb
    exact (main_truthful e model vars filter tr o h before _ after e1).1 rfl
  · exact (main_says e model hm _ filter .verticalWind (by decide +kernel)).2 tr h
  · have := (C188_success e model hm _ filter tr .done h .verticalCloud (by decide)).1 hb
    revert this
    decide +kernel
  · obtain ⟨m, hm⟩ := Spec.exists_accurateRow
    obtain ⟨ws, h⟩ := lossless_succeeds m hm (fun _ => false) ⟨2025, 8, 5⟩ [LayerType.verticalWind.name] []
    obtain ⟨tr, h1, -⟩ := (C188_same _ _ _ _).2 ws .done h
    exact ⟨_, tr, h1⟩

/-- A call for the temperature that succeeds: between its two messages lie the files of the call. -/
example : ∃ (e : Environment) (tr : List Happening) (before after : List Happening),
    mainStory e "icon-d2".toList [LayerType.temp2m.name] [3] tr .done ∧ tr = before ++ .said (completion .temp2m) :: after ∧
    ∃ (a : List Happening) (ws : List Write), before = a ++ .said (beginning .temp2m) :: ws.map .wrote ∧
      mainEffect e "icon-d2".toList [LayerType.temp2m.name] [3] ws .done := by
  obtain ⟨m, hm⟩ := Spec.exists_accurateRow
  obtain ⟨ws, h⟩ := lossless_succeeds m hm (fun _ => false) ⟨2025, 8, 5⟩ [LayerType.temp2m.name] [3]
  obtain ⟨tr, h1, -⟩ := (C188_same _ _ _ _).2 ws .done h
  have hs := (main_says _ "icon-d2".toList (by simp) [LayerType.temp2m.name] [3] .temp2m (by decide +kernel)).2 tr h1
  obtain ⟨before, after, e1⟩ := List.append_of_mem hs
  exact ⟨_, tr, before, after, h1, e1, (C188_finished_partial _ _ _ _ _ _ h1 .temp2m (by simp) before after e1).2⟩

end Verif.Props
