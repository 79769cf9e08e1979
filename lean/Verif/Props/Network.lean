import Verif.Lemmas.Network
import Verif.Lemmas.Monotone
import Verif.Props.Disk
import Verif.Props.Grib2Read

/-!
# Property C176: a network that is not reliable
-/

namespace Verif.Props

open Verif MapTileRenderer Dwd Grib2

/-! ## Specification -/

/-- What the decoder is given of an answer. -/
def unpackBody (w : World) (url : Text) (body : List UInt8) : List UInt8 :=
  if ".bz2".toList <:+ url then w.bunzip body else body

/-- What may happen to a request: nothing comes (no connection, not there, an error of the server), the file comes, the transfer
breaks off, or something comes that does not begin with a message. -/
inductive Answer (w : World) (url : Text) : Option (List UInt8) → Prop
  | nothing : Answer w url none
  | file : Answer w url (w.download url)
  | cut {body part : List UInt8} (h : w.download url = some body) (hp : unpackBody w url part <+: unpackBody w url body) :
      Answer w url (some part)
  | other {part : List UInt8} (h : readSingleDoc (unpackBody w url part) = .err) : Answer w url (some part)

/-- Every request is answered in one of these ways, and different requests of the same file in different ways. -/
def Faulty (net : Net) (w : World) : Prop := (∀ url, ∃ a, net url a) ∧ ∀ url a, net url a → Answer w url a

/-- What is not the file itself does not begin with a complete message. -/
def Whole (net : Net) (w : World) : Prop :=
  ∀ url part, net url (some part) → some part ≠ w.download url → readSingleDoc (unpackBody w url part) = .err

/-! ## Reading -/

/-- `x` has results, and all are that of `r` or (if `F`) errors. -/
def Sim {α : Type} (F : Prop) (x : May α) (r : Res α) : Prop := (∃ a, x a) ∧ ∀ a, x a → (F ∧ a = .err) ∨ a = r

namespace Sim

variable {F : Prop}

theorem of {α : Type} (r : Res α) : Sim F (May.of r) r := ⟨⟨r, rfl⟩, fun _ h => .inr h⟩

theorem bind {α β : Type} {x : May α} {r : Res α} {f : α → May β} {g : α → Res β} (h : Sim F x r)
    (hf : ∀ a, Sim F (f a) (g a)) : Sim F (x >>= f) (r >>= g) := by
  obtain ⟨⟨a, ha⟩, h⟩ := h
  constructor
  · cases a with
    | ok v =>
      obtain ⟨⟨b, hb⟩, -⟩ := hf v
      exact ⟨b, .inr (.inr ⟨v, ha, hb⟩)⟩
    | err => exact ⟨.err, .inl ⟨ha, rfl⟩⟩
    | panic => exact ⟨.panic, .inr (.inl ⟨ha, rfl⟩)⟩
  · rintro b (⟨h1, rfl⟩ | ⟨h1, rfl⟩ | ⟨v, h1, h2⟩)
    · rcases h _ h1 with h | rfl
      · exact .inl ⟨h.1, rfl⟩
      · exact .inr rfl
    · rcases h _ h1 with h | rfl
      · cases h.2
      · exact .inr rfl
    · rcases h _ h1 with h | rfl
      · cases h.2
      · exact (hf v).2 b h2

theorem lift {α β : Type} (r : Res α) {f : α → May β} {g : α → Res β} (hf : ∀ a, Sim F (f a) (g a)) :
    Sim F ((liftM r : May α) >>= f) (r >>= g) := bind (of r) hf

theorem pure {α : Type} (a : α) : Sim F (Pure.pure a : May α) (.ok a) := of _

theorem mapM {α β : Type} {f : α → May β} {g : α → Res β} (h : ∀ a, Sim F (f a) (g a)) (l : List α) :
    Sim F (May.mapM f l) (Res.mapM g l) := by
  induction l with
  | nil => exact pure _
  | cons a l ih => exact bind (h a) fun _ => bind ih fun _ => pure _

end Sim

/-- Requests are answered, and if not `F` with the file of `w`. -/
def Answers (F : Prop) (net : Net) (w : World) : Prop :=
  (∀ url, ∃ a, net url a) ∧ ∀ url a, net url a → (F ∧ Answer w url a) ∨ a = w.download url

theorem unpackBody_eq (w : World) (url : Text) (body : List UInt8) :
    unpackBody w url body = if isBz2 url then w.bunzip body else body := by
  unfold unpackBody isBz2
  simp only [List.isSuffixOf_iff_suffix]

theorem Answer.single {w : World} {url : Text} {a : Option (List UInt8)} (h : Answer w url a) :
    (do let s ← (do let b ← Res.okOr a; .ok (unpackBody w url b) : Res (List UInt8))
        let r ← readSingleDoc s
        .ok r.1 : Res Document) = .err ∨
    (do let s ← (do let b ← Res.okOr a; .ok (unpackBody w url b) : Res (List UInt8))
        let r ← readSingleDoc s
        .ok r.1 : Res Document) =
      (do let s ← (do let b ← Res.okOr (w.download url); .ok (unpackBody w url b) : Res (List UInt8))
          let r ← readSingleDoc s
          .ok r.1 : Res Document) := by
  cases h with
  | nothing => exact .inl rfl
  | file => exact .inr rfl
  | @cut body part h hp =>
    rw [h]
    simp only [Res.okOr_some, Res.bind_ok]
    obtain ⟨t, ht⟩ := hp
    rw [← ht]
    obtain ⟨h1, h2⟩ := firm_single (unpackBody w url part) t
    cases hr : readSingleDoc (unpackBody w url part) with
    | ok p => rw [h1 p.1 p.2 hr]; exact .inr rfl
    | err => exact .inl rfl
    | panic => rw [h2 hr]; exact .inr rfl
  | other h =>
    simp only [Res.okOr_some, Res.bind_ok]
    rw [h]
    exact .inl rfl

theorem stream_eq (w : World) {name : Text} (hu : isUrl name = true) :
    w.stream name = (do let b ← Res.okOr (w.download name); .ok (unpackBody w name b)) := by
  unfold World.stream
  rw [if_pos hu]
  simp only [unpackBody_eq]

theorem net_stream {net : Net} {w : World} {name : Text} (hu : isUrl name = true) (r : Res (List UInt8)) :
    net.stream w name r ↔ ∃ a, net name a ∧ r = (do let b ← Res.okOr a; .ok (unpackBody w name b)) := by
  unfold Net.stream
  rw [if_pos hu]
  constructor
  · rintro (⟨⟨a, h1, h2⟩, rfl⟩ | ⟨⟨a, h1, h2⟩, rfl⟩ | ⟨b, ⟨a, h1, h2⟩, h3⟩)
    · refine ⟨a, h1, ?_⟩; rw [← h2]; rfl
    · refine ⟨a, h1, ?_⟩; rw [← h2]; rfl
    · refine ⟨a, h1, ?_⟩
      rw [← h2, Res.bind_ok, unpackBody_eq]
      exact h3
  · rintro ⟨a, h1, rfl⟩
    cases a with
    | none => exact .inl ⟨⟨none, h1, rfl⟩, rfl⟩
    | some b => exact .inr (.inr ⟨b, ⟨some b, h1, rfl⟩, by rw [Res.okOr_some, Res.bind_ok, unpackBody_eq]; rfl⟩)

theorem bind_may {α β : Type} {x : May α} {f : α → Res β} {b : Res β} :
    (x >>= fun a => May.of (f a)) b ↔ ∃ r, x r ∧ b = r >>= f := by
  constructor
  · rintro (⟨h, rfl⟩ | ⟨h, rfl⟩ | ⟨a, h, h2⟩)
    · exact ⟨_, h, rfl⟩
    · exact ⟨_, h, rfl⟩
    · exact ⟨_, h, h2⟩
  · rintro ⟨r, h, rfl⟩
    cases r with
    | ok a => exact .inr (.inr ⟨a, h, rfl⟩)
    | err => exact .inl ⟨h, rfl⟩
    | panic => exact .inr (.inl ⟨h, rfl⟩)

theorem of_bind {α β : Type} (r : Res α) (f : α → Res β) : (May.of r >>= fun a => May.of (f a)) = May.of (r >>= f) := by
  funext b
  apply propext
  rw [bind_may]
  constructor
  · rintro ⟨_, rfl, rfl⟩; rfl
  · rintro rfl; exact ⟨_, rfl, rfl⟩

theorem net_single (net : Net) (w : World) (name : Text) :
    net.readSingle w name = (net.stream w name >>= fun s => May.of (do let r ← readSingleDoc s; .ok r.1)) := by
  unfold Net.readSingle
  congr 1
  funext s
  exact of_bind (readSingleDoc s) fun r => .ok r.1

theorem sim_single {F : Prop} {net : Net} {w : World} (h : Answers F net w) (name : Text) :
    Sim F (net.readSingle w name) (w.readSingle name) := by
  by_cases hu : isUrl name = true
  · rw [net_single]
    unfold World.readSingle
    constructor
    · obtain ⟨a, ha⟩ := h.1 name
      exact ⟨_, bind_may.mpr ⟨_, (net_stream hu _).mpr ⟨a, ha, rfl⟩, rfl⟩⟩
    · intro b hb
      obtain ⟨r, hr, rfl⟩ := bind_may.mp hb
      obtain ⟨a, ha, rfl⟩ := (net_stream hu _).mp hr
      rw [stream_eq w hu]
      rcases h.2 name a ha with ⟨hF, ha⟩ | rfl
      · exact ha.single.imp (fun e => ⟨hF, e⟩) id
      · exact .inr rfl
  · unfold Net.readSingle World.readSingle Net.stream World.stream
    rw [if_neg hu, if_neg hu]
    exact .bind (.of _) fun _ => .lift _ fun _ => .pure _

theorem sim_multi {F : Prop} {net : Net} {w : World} (h : Answers F net w) (hw : Whole net w) (name : Text) :
    Sim F (net.readMulti w name) (w.readMulti name) := by
  by_cases hu : isUrl name = true
  · unfold Net.readMulti World.readMulti
    constructor
    · obtain ⟨a, ha⟩ := h.1 name
      exact ⟨_, bind_may.mpr ⟨_, (net_stream hu _).mpr ⟨a, ha, rfl⟩, rfl⟩⟩
    · intro b hb
      obtain ⟨r, hr, rfl⟩ := bind_may.mp hb
      obtain ⟨a, ha, rfl⟩ := (net_stream hu _).mp hr
      rw [stream_eq w hu]
      rcases h.2 name a ha with ⟨hF, -⟩ | rfl
      · cases a with
        | none => exact .inl ⟨hF, rfl⟩
        | some part =>
          by_cases he : some part = w.download name
          · rw [he]; exact .inr rfl
          · refine .inl ⟨hF, ?_⟩
            simp only [Res.okOr_some, Res.bind_ok]
            exact C02_first_unreadable _ (hw name part ha he)
      · exact .inr rfl
  · unfold Net.readMulti World.readMulti Net.stream World.stream
    rw [if_neg hu, if_neg hu]
    exact .bind (.of _) fun _ => .of _

theorem res_assoc {α β γ : Type} (r : Res α) (f : α → Res β) (g : β → Res γ) :
    ((r >>= f) >>= g) = r >>= fun a => f a >>= g := by
  cases r <;> rfl

theorem res_ok_bind {α β : Type} (a : α) (f : α → Res β) : ((.ok a : Res α) >>= f) = f a := rfl

section Readers

variable {F : Prop} {net : Net} {w : World} (h : Answers F net w)
include h

theorem sim_rectangular {T : Type} (name : Text) (missing : T) (f : Fl → T) :
    Sim F (net.readRectangular w name missing f) (w.readRectangular name missing f) :=
  .bind (sim_single h name) fun _ => .of _

theorem sim_unstructured {T : Type} (name : Text) (missing : T) (f : Fl → T) (grid : UnstructuredGrid) :
    Sim F (net.readUnstructured w name missing f grid) (w.readUnstructured name missing f grid) :=
  .bind (sim_single h name) fun _ => .of _

theorem sim_dwdGrid (run : Run) (x : SingleVar) (s : RunStep) : Sim F (net.dwdGrid w run x s) (Dwd.readGrid w run x s) :=
  .lift _ fun _ => sim_rectangular h _ _ _

theorem sim_dwdTemp (run : Run) (s : RunStep) : Sim F (net.dwdTemp w run s) (Dwd.tempLayers w run s) := by
  unfold Dwd.tempLayers Dwd.readTemp
  simp only [res_assoc, res_ok_bind]
  exact .bind (sim_dwdGrid h _ _ _) fun _ => .pure _

theorem sim_dwdWind (run : Run) (s : RunStep) : Sim F (net.dwdWind w run s) (Dwd.windLayers w run s) := by
  unfold Dwd.windLayers Dwd.readWind
  simp only [res_assoc]
  exact .bind (sim_dwdGrid h _ _ _) fun _ => .bind (sim_dwdGrid h _ _ _) fun _ => .bind (sim_dwdGrid h _ _ _) fun _ =>
    .lift _ fun _ => .pure _

theorem sim_dwdCloudPrecip (run : Run) (clct totPrec : List RunStep) (s : RunStep) :
    Sim F (net.dwdCloudPrecip w run clct totPrec s) (Dwd.cloudPrecipLayers w run clct totPrec s) := by
  unfold Dwd.cloudPrecipLayers Dwd.readCloudPrecip Dwd.readWeather
  simp only [res_assoc]
  exact .lift _ fun _ => .bind (sim_dwdGrid h _ _ _) fun _ => .bind (sim_dwdGrid h _ _ _) fun _ =>
    .bind (sim_dwdGrid h _ _ _) fun _ => .lift _ fun _ => .bind (sim_dwdGrid h _ _ _) fun _ =>
    .bind (sim_dwdGrid h _ _ _) fun _ => .bind (sim_dwdGrid h _ _ _) fun _ => .lift _ fun _ => .pure _

theorem sim_dwdHhl (run : Run) (levels : Nat × Nat) : Sim F (net.dwdHhl w run levels) (Dwd.readHhl w run levels) :=
  .mapM (fun _ => .lift _ fun _ => sim_rectangular h _ _ _) _

theorem sim_dwdClc (run : Run) (s : RunStep) (levels : Nat × Nat) :
    Sim F (net.dwdClc w run s levels) (Dwd.readClc w run s levels) :=
  .mapM (fun _ => .lift _ fun _ => sim_rectangular h _ _ _) _

theorem sim_dwdUV (run : Run) (x : LevelVar) (s : RunStep) (levels : Nat × Nat) :
    Sim F (net.dwdUV w run x s levels) (Dwd.readUV w run x s levels) :=
  .mapM (fun _ => .lift _ fun _ => sim_rectangular h _ _ _) _

theorem sim_dwdVerticalCloud (run : Run) (levels : Nat × Nat) (hhl : List (LatLonValueGrid UInt8)) (s : RunStep) :
    Sim F (net.dwdVerticalCloud w run levels hhl s) (Dwd.verticalCloudLayers w run levels hhl s) :=
  .bind (sim_dwdClc h _ _ _) fun _ => .lift _ fun _ => .pure _

theorem sim_dwdVerticalWind (run : Run) (levels : Nat × Nat) (hhl : List (LatLonValueGrid UInt8)) (s : RunStep) :
    Sim F (net.dwdVerticalWind w run levels hhl s) (Dwd.verticalWindLayers w run levels hhl s) :=
  .bind (sim_dwdUV h _ _ _ _) fun _ => .bind (sim_dwdUV h _ _ _ _) fun _ => .lift _ fun _ => .pure _

theorem sim_swissGrid (grid : UnstructuredGrid) (f : Fl → Fl) (s : RunStep) :
    Sim F (net.swissGrid w grid f s) (Swiss.readGrid w grid f s) := sim_unstructured h _ _ _ _

theorem sim_swissTemp (grid : UnstructuredGrid) (t2m : List RunStep) (s : RunStep) :
    Sim F (net.swissTemp w grid t2m s) (do let l ← Swiss.readTemp w grid t2m s; .ok (.temp l)) := by
  unfold Swiss.readTemp
  simp only [res_assoc, res_ok_bind]
  exact .lift _ fun _ => .bind (sim_swissGrid h _ _ _) fun _ => .pure _

theorem sim_swissWind (grid : UnstructuredGrid) (u v g : List RunStep) (s : RunStep) :
    Sim F (net.swissWind w grid u v g s) (do let l ← Swiss.readWind w grid u v g s; .ok (.wind l)) := by
  unfold Swiss.readWind
  simp only [res_assoc]
  exact .lift _ fun _ => .lift _ fun _ => .lift _ fun _ => .bind (sim_swissGrid h _ _ _) fun _ =>
    .bind (sim_swissGrid h _ _ _) fun _ => .bind (sim_swissGrid h _ _ _) fun _ => .lift _ fun _ => .pure _

theorem sim_swissCloudPrecip (grid : UnstructuredGrid) (clct totPrec ceiling : List RunStep) (s : RunStep) :
    Sim F (net.swissCloudPrecip w grid clct totPrec ceiling s) (do
      let l ← Swiss.readCloudPrecip w grid clct totPrec s
      let ww ← Swiss.readWeather w grid clct ceiling s
      .ok (.cloudPrecip l ww)) := by
  unfold Swiss.readCloudPrecip Swiss.readWeather
  simp only [res_assoc]
  exact .lift _ fun _ => .bind (sim_swissGrid h _ _ _) fun _ => .bind (sim_swissGrid h _ _ _) fun _ =>
    .bind (sim_swissGrid h _ _ _) fun _ => .lift _ fun _ => .lift _ fun _ => .lift _ fun _ =>
    .bind (sim_swissGrid h _ _ _) fun _ => .bind (sim_swissGrid h _ _ _) fun _ => .lift _ fun _ => .pure _

variable (hw : Whole net w)
include hw

theorem sim_multiUnstructured {T : Type} (name : Text) (missing : T) (f : Fl → T) (grid : UnstructuredGrid)
    (range : Option (Nat × Nat)) :
    Sim F (net.readMultiUnstructured w name missing f grid range) (w.readMultiUnstructured name missing f grid range) :=
  .bind (sim_multi h hw name) fun _ => .of _

theorem sim_swissVerticalCloud (grid : UnstructuredGrid) (hhl : List (LatLonValueGrid UInt8)) (clc : List RunStep)
    (s : RunStep) : Sim F (net.swissVerticalCloud w grid hhl clc s)
      (do let l ← Swiss.readVerticalCloud w grid hhl clc s; .ok (.verticalCloud l)) := by
  unfold Swiss.readVerticalCloud
  simp only [res_assoc]
  exact .lift _ fun _ => .bind (sim_multiUnstructured h hw _ _ _ _ _) fun _ => .lift _ fun _ => .pure _

theorem sim_swissVerticalWind (grid : UnstructuredGrid) (hhl : List (LatLonValueGrid UInt8)) (u v : List RunStep)
    (s : RunStep) : Sim F (net.swissVerticalWind w grid hhl u v s)
      (do let l ← Swiss.readVerticalWind w grid hhl u v s; .ok (.verticalWind l)) := by
  unfold Swiss.readVerticalWind
  simp only [res_assoc]
  exact .lift _ fun _ => .lift _ fun _ => .bind (sim_multiUnstructured h hw _ _ _ _ _) fun _ =>
    .bind (sim_multiUnstructured h hw _ _ _ _ _) fun _ => .lift _ fun _ => .pure _

theorem sim_swissHorConst (url : Text) : Sim F (net.swissHorConst w url) (Swiss.readHorConst w url) :=
  .bind (sim_multi h hw url) fun _ => .lift _ fun _ => .lift _ fun _ => .lift _ fun _ => .lift _ fun _ => .lift _ fun _ =>
    .of _

end Readers

/-! ## Executions -/

/-- `a` ends like `b` or fails, and writes only what `b` may write; if not `F`, it is the same. -/
structure Weak {α : Type} (F : Prop) (a b : List α → Outcome → Prop) : Prop where
  done : ∀ tr, a tr .done → b tr .done
  panicked : ∀ tr, a tr .panicked → ∃ tr', b tr' .panicked
  within : ∀ tr o, a tr o → ∀ x ∈ tr, ∃ tr' o', b tr' o' ∧ x ∈ tr'
  total : ∃ tr o, b tr o
  total' : ∃ tr o, a tr o
  exact : ¬ F → ∀ tr o, a tr o ↔ b tr o

namespace Weak

variable {F : Prop}

theorem refl {α : Type} {a : List α → Outcome → Prop} (h : ∃ tr o, a tr o) : Weak F a a :=
  ⟨fun _ h => h, fun tr h => ⟨tr, h⟩, fun tr o h _ hx => ⟨tr, o, h, hx⟩, h, h, fun _ _ _ => Iff.rfl⟩

theorem const {α : Type} (o : Outcome) :
    Weak F (fun (tr : List α) o' => tr = [] ∧ o' = o) (fun tr o' => tr = [] ∧ o' = o) :=
  refl ⟨[], o, rfl, rfl⟩

theorem need {β : Type} (r : Res β) {f g : β → Effect} (h : ∀ x, Weak F (f x) (g x)) :
    Weak F (Effect.need r f) (Effect.need r g) := by
  cases r with
  | ok x => exact h x
  | err => exact const .failed
  | panic => exact const .panicked

theorem when (c : Bool) {e e' : Effect} (h : Weak F e e') : Weak F (Effect.when c e) (Effect.when c e') := by
  cases c with
  | true => exact h
  | false => exact const .done

theorem needs {β : Type} {x : May β} {r : Res β} (hs : Sim F x r) {f g : β → Effect} (h : ∀ b, Weak F (f b) (g b)) :
    Weak F (Effect.needs x f) (Effect.need r g) := by
  obtain ⟨⟨a, ha⟩, hs⟩ := hs
  have ok : ∀ b, x (.ok b) → Effect.need r g = g b := by
    intro b hb
    rcases hs _ hb with e | rfl
    · cases e.2
    · rfl
  refine ⟨?_, ?_, ?_, ?_, ?_, fun hF tr o => ?_⟩
  · rintro tr (⟨_, _, e⟩ | ⟨_, _, e⟩ | ⟨b, hb, e⟩)
    · cases e
    · cases e
    · rw [ok b hb]; exact (h b).done tr e
  · rintro tr (⟨_, _, e⟩ | ⟨hp, _, e⟩ | ⟨b, hb, e⟩)
    · cases e
    · rcases hs _ hp with e | rfl
      · cases e.2
      · exact ⟨[], rfl, rfl⟩
    · rw [ok b hb]; exact (h b).panicked tr e
  · rintro tr o (⟨_, rfl, e⟩ | ⟨_, rfl, e⟩ | ⟨b, hb, e⟩) y hy
    · cases hy
    · cases hy
    · rw [ok b hb]; exact (h b).within tr o e y hy
  · cases r with
    | ok b => exact (h b).total
    | err => exact ⟨[], _, rfl, rfl⟩
    | panic => exact ⟨[], _, rfl, rfl⟩
  · cases a with
    | ok b =>
      obtain ⟨tr, o, e⟩ := (h b).total'
      exact ⟨tr, o, .inr (.inr ⟨b, ha, e⟩)⟩
    | err => exact ⟨[], _, .inl ⟨ha, rfl, rfl⟩⟩
    | panic => exact ⟨[], _, .inr (.inl ⟨ha, rfl, rfl⟩)⟩
  · have hx : ∀ a, x a → a = r := fun a h => (hs a h).resolve_left fun e => hF e.1
    obtain rfl := hx a ha
    constructor
    · rintro (⟨hp, e⟩ | ⟨hp, e⟩ | ⟨b, hb, e⟩)
      · rw [← hx _ hp]; exact e
      · rw [← hx _ hp]; exact e
      · rw [ok b hb]; exact ((h b).exact hF tr o).mp e
    · intro e
      cases a with
      | ok b => exact .inr (.inr ⟨b, ha, ((h b).exact hF tr o).mpr e⟩)
      | err => exact .inl ⟨ha, e⟩
      | panic => exact .inr (.inl ⟨ha, e⟩)

theorem seq {α : Type} {as bs : List (List α → Outcome → Prop)} (h : List.Forall₂ (Weak F) as bs) :
    Weak F (Seq as) (Seq bs) := by
  induction h with
  | nil => exact refl ⟨_, _, .nil⟩
  | @cons a b as bs h1 _ ih =>
    have extend : ∀ {a : List α → Outcome → Prop} {as tr o}, (∃ tr o, Seq as tr o) → a tr o →
        ∃ tr' o', Seq (a :: as) tr' o' ∧ ∀ w ∈ tr, w ∈ tr' := by
      intro a as tr o ht hb
      by_cases ho : o = .done
      · subst ho
        obtain ⟨tr2, o2, h2⟩ := ht
        exact ⟨_, _, .cons hb h2, fun w hw => List.mem_append.mpr (.inl hw)⟩
      · exact ⟨_, _, .stop hb ho, fun w hw => hw⟩
    refine ⟨fun tr h => ?_, fun tr h => ?_, fun tr o h x hx => ?_, ?_, ?_, fun hF tr o => ⟨fun h => ?_, fun h => ?_⟩⟩
    · cases h with
      | cons h2 t => exact .cons (h1.done _ h2) (ih.done _ t)
      | stop h2 ho => exact absurd rfl ho
    · cases h with
      | cons h2 t =>
        obtain ⟨tr', e⟩ := ih.panicked _ t
        exact ⟨_, .cons (h1.done _ h2) e⟩
      | stop h2 ho =>
        obtain ⟨tr', e⟩ := h1.panicked _ h2
        exact ⟨_, .stop e ho⟩
    · cases h with
      | cons h2 t =>
        rcases List.mem_append.mp hx with hx | hx
        · obtain ⟨tr', o', e, hm⟩ := extend ih.total (h1.done _ h2)
          exact ⟨tr', o', e, hm x hx⟩
        · obtain ⟨tr', o', e, hm⟩ := ih.within _ _ t x hx
          exact ⟨_, _, .cons (h1.done _ h2) e, List.mem_append.mpr (.inr hm)⟩
      | stop h2 ho =>
        obtain ⟨tr', o', e, hm⟩ := h1.within _ _ h2 x hx
        obtain ⟨tr2, o2, e2, hm2⟩ := extend ih.total e
        exact ⟨tr2, o2, e2, hm2 x hm⟩
    · obtain ⟨tr, o, e⟩ := h1.total
      obtain ⟨tr2, o2, e2, _⟩ := extend ih.total e
      exact ⟨tr2, o2, e2⟩
    · obtain ⟨tr, o, e⟩ := h1.total'
      obtain ⟨tr2, o2, e2, _⟩ := extend ih.total' e
      exact ⟨tr2, o2, e2⟩
    · cases h with
      | cons h2 t => exact .cons ((h1.exact hF _ _).mp h2) ((ih.exact hF _ _).mp t)
      | stop h2 ho => exact .stop ((h1.exact hF _ _).mp h2) ho
    · cases h with
      | cons h2 t => exact .cons ((h1.exact hF _ _).mpr h2) ((ih.exact hF _ _).mpr t)
      | stop h2 ho => exact .stop ((h1.exact hF _ _).mpr h2) ho

end Weak

/-- If an item can panic, the loop can. -/
theorem parTry_panics {α β : Type} {work : α → List β → Outcome → Prop} {items : List α} {a : α} (ha : a ∈ items)
    {t : List β} (h : work a t .panicked) : ParTry work items t .panicked := by
  obtain ⟨k, hk, rfl⟩ := List.mem_iff_getElem.mp ha
  have e : t = (t.map fun w => (k, w)).map Prod.snd := by simp [Function.comp_def]
  have f : ∀ i, ((t.map fun w => (k, w)).filter fun e => e.1 == i) = if i = k then t.map fun w => (k, w) else [] := by
    intro i
    split
    next hik => subst hik; simp [List.filter_eq_self]
    next hik => simpa [List.filter_eq_nil_iff] using fun _ _ e => hik e.symm
  rw [e]
  refine .mk _ (fun i => if i = k then some .panicked else none) .panicked ?_ ?_ ?_ ?_ ?_
  · simpa using fun _ _ => hk
  · intro i hi oi ho
    by_cases hik : i = k
    · subst hik
      simp only [if_true, Option.some.injEq] at ho
      subst ho
      rw [f, if_pos rfl, ← e]
      exact h
    · simp [hik] at ho
  · intro i hi ho
    have hik : i ≠ k := by rintro rfl; simp at ho
    exact ⟨by rw [f, if_neg hik], by simp⟩
  · exact ⟨fun _ => ⟨k, hk, by simp⟩, fun _ => rfl⟩
  · constructor
    · intro h; cases h
    · rintro ⟨_, h⟩
      exact absurd ⟨k, hk, by simp⟩ h

theorem Weak.parTry {F : Prop} {α β : Type} {wa wb : α → List β → Outcome → Prop} (items : List α)
    (h : ∀ x ∈ items, Weak F (wa x) (wb x)) : Weak F (ParTry wa items) (ParTry wb items) := by
  have tot : ∀ {w : α → List β → Outcome → Prop}, (∀ x ∈ items, ∃ tr o, w x tr o) → ∃ tr o, ParTry w items tr o := by
    intro w hw
    obtain ⟨tr', o2, e2, _⟩ := parTry_exists_with hw items.length [] .done fun hk => absurd hk (lt_irrefl _)
    exact ⟨tr', o2, e2⟩
  refine ⟨fun tr ht => ?_, fun tr ht => ?_, fun tr o ht x hx => ?_, tot fun x hx => (h x hx).total,
    tot fun x hx => (h x hx).total', fun hF tr o => ⟨parTry_mono fun x hx tr o => ((h x hx).exact hF tr o).mp,
      parTry_mono fun x hx tr o => ((h x hx).exact hF tr o).mpr⟩⟩
  · generalize ho : Outcome.done = o at ht
    cases ht with
    | mk tagged ends _ tags ran skipped panicked failed =>
      subst ho
      refine .mk tagged ends _ tags (fun i hi oi he => ?_) skipped panicked failed
      have r := ran i hi oi he
      cases oi with
      | done => exact (h _ (List.getElem_mem hi)).done _ r
      | panicked => exact absurd (panicked.mpr ⟨i, hi, he⟩) (by simp)
      | failed =>
        by_cases hp : ∃ i, i < items.length ∧ ends i = some .panicked
        · exact absurd (panicked.mpr hp) (by simp)
        · exact absurd (failed.mpr ⟨⟨i, hi, he⟩, hp⟩) (by simp)
  · generalize ho : Outcome.panicked = o at ht
    cases ht with
    | mk tagged ends _ tags ran skipped panicked failed =>
      obtain ⟨i, hi, he⟩ := panicked.mp ho.symm
      obtain ⟨tr', e⟩ := (h _ (List.getElem_mem hi)).panicked _ (ran i hi _ he)
      exact ⟨tr', ho ▸ parTry_panics (List.getElem_mem hi) e⟩
  · obtain ⟨a, ha, t, oi, hw1, hw2⟩ := parTry_any ht x hx
    obtain ⟨t', o', e, hm⟩ := (h a ha).within _ _ hw1 x hw2
    obtain ⟨k, hk, rfl⟩ := List.mem_iff_getElem.mp ha
    obtain ⟨tr', o2, e2, hm2⟩ := parTry_exists_with (fun x hx => (h x hx).total) k t' o' fun _ => e
    exact ⟨tr', o2, e2, hm2 hk x hm⟩

theorem job_total (m : Libm) (run : Run) (dirs : Text → Bool) (n : Nat) (l : Layers) :
    ∃ tr o, RunJob m run dirs n l.job tr o :=
  (tame_job (fun _ => .stored) m run dirs n l.job (job_mkdir l)).total

theorem weak_steps {F : Prop} (m : Libm) (run : Run) (dirs : Text → Bool) (steps : List RunStep) (filter : List Nat)
    {x : RunStep → May Layers} {r : RunStep → Res Layers} (h : ∀ s, Sim F (x s) (r s)) :
    Weak F (renderStepsNet m run dirs steps filter x) (renderSteps m run dirs steps filter r) := by
  refine .parTry _ fun s _ => ?_
  show Weak F (fun tr o => runStepNet m run dirs filter x s tr o) (fun tr o => runStep m run dirs filter r s tr o)
  unfold runStepNet runStep
  by_cases hs : selected filter s = true
  · simp only [hs, if_true]
    have k := Weak.needs (h s) fun l => Weak.refl (F := F) (job_total m run dirs s.nr l)
    cases hr : r s <;> rw [hr] at k <;> exact k
  · simp only [hs, Bool.false_eq_true, if_false]
    exact .const .done

theorem weak_main {F : Prop} {net : Net} {e : Environment} (h : Answers F net e.world) (model : Text)
    (hw : model = "icon-ch1".toList → Whole net e.world) (vars : List Text) (filter : List Nat) :
    Weak F (mainNet net e model vars filter) (mainEffect e model vars filter) := by
  have dwd : ∀ run, Weak F (Dwd.renderRunNet net e.libm e.world e.dirs vars filter run)
      (Dwd.renderRun e.libm e.world e.dirs vars filter run) := fun run =>
    .seq (.cons (.when _ (.need _ fun _ => weak_steps _ _ _ _ _ (sim_dwdCloudPrecip h _ _ _)))
      (.cons (.when _ (weak_steps _ _ _ _ _ (sim_dwdWind h _))) (.cons (.when _ (weak_steps _ _ _ _ _ (sim_dwdTemp h _)))
      (.cons (.when _ (.needs (sim_dwdHhl h _ _) fun _ =>
        .seq (.cons (.when _ (weak_steps _ _ _ _ _ (sim_dwdVerticalCloud h _ _ _)))
          (.cons (.when _ (weak_steps _ _ _ _ _ (sim_dwdVerticalWind h _ _ _))) .nil)))) .nil))))
  have swiss : Whole net e.world → ∀ grid url t,
      Weak F (Swiss.renderRunNet net e.libm e.world e.service e.calendar e.dirs vars filter grid url t)
        (Swiss.renderRun e.libm e.world e.service e.calendar e.dirs vars filter grid url t) := fun hw grid url t =>
    .seq (.cons (.when _ (.need _ fun _ => .need _ fun _ => .need _ fun _ => .need _ fun _ =>
        weak_steps _ _ _ _ _ (sim_swissCloudPrecip h _ _ _ _)))
      (.cons (.when _ (.need _ fun _ => .need _ fun _ => .need _ fun _ => .need _ fun _ =>
        weak_steps _ _ _ _ _ (sim_swissWind h _ _ _ _)))
      (.cons (.when _ (.need _ fun _ => .need _ fun _ => weak_steps _ _ _ _ _ (sim_swissTemp h _ _)))
      (.cons (.when _ (.needs (sim_multiUnstructured h hw _ _ _ _ _) fun _ =>
        .seq (.cons (.when _ (.need _ fun _ => .need _ fun _ => weak_steps _ _ _ _ _ (sim_swissVerticalCloud h hw _ _ _)))
        (.cons (.when _ (.need _ fun _ => .need _ fun _ => .need _ fun _ =>
          weak_steps _ _ _ _ _ (sim_swissVerticalWind h hw _ _ _ _))) .nil)))) .nil))))
  unfold mainNet mainEffect
  by_cases h1 : model = "icon-ch1".toList
  · rw [if_pos h1, if_pos h1]
    exact .need _ fun _ => .need _ fun _ => .needs (sim_swissHorConst h (hw h1) _) fun _ => .need _ fun _ => .need _ fun _ =>
      .need _ fun _ => swiss (hw h1) _ _ _
  · rw [if_neg h1, if_neg h1]
    split
    · exact .need _ fun _ => dwd _
    · split
      · exact .need _ fun _ => dwd _
      · exact .const .done

/-! ## The property -/

/-- C176: requests that fail or break off, each in its own way.  For the models of DWD whatever is delivered is the file, a part of
it, or something that does not begin with a message; for MeteoSwiss what is not the whole file does not begin with a
message.  The call ends in some way.  All files written are those of a call with a reliable network.  A call that renders
everything is one with a reliable network.  A call panics only if one with a reliable network can. -/
theorem C176_faulty_partial (net : Net) (e : Environment) (model : Text) (vars : List Text) (filter : List Nat)
    (h : Faulty net e.world) (hw : model = "icon-ch1".toList → Whole net e.world) :
    (∃ tr o, mainNet net e model vars filter tr o) ∧
    (∀ tr o, mainNet net e model vars filter tr o → ∀ x ∈ tr, MainExpected e model vars filter x.path x.content) ∧
    (∀ tr, mainNet net e model vars filter tr .done → mainEffect e model vars filter tr .done) ∧
    (∀ tr, mainNet net e model vars filter tr .panicked → ∃ tr', mainEffect e model vars filter tr' .panicked) := by
  have k := weak_main (F := True) ⟨h.1, fun url a ha => .inl ⟨trivial, h.2 url a ha⟩⟩ model hw vars filter
  refine ⟨k.total', fun tr o ht x hx => ?_, k.done, k.panicked⟩
  obtain ⟨tr', o', h', hm⟩ := k.within tr o ht x hx
  exact (C87_main e model vars filter tr').1 o' h' x hm

/-- C176: if every request is answered with the file, all is as modelled for C87. -/
theorem C176_reliable (net : Net) (e : Environment) (hn : ∀ url a, net url a ↔ a = e.world.download url) (model : Text)
    (vars : List Text) (filter : List Nat) (tr : List Write) (o : Outcome) :
    mainNet net e model vars filter tr o ↔ mainEffect e model vars filter tr o := by
  refine (weak_main (F := False) ⟨fun url => ⟨_, (hn url _).mpr rfl⟩, fun url a ha => .inr ((hn url a).mp ha)⟩ model
    (fun _ url part hp hd => absurd ((hn _ _).mp hp) hd) vars filter).exact id tr o

/-- C176: a call that renders everything leaves the same files whether or not calls that met with failures were made before. -/
theorem C176_retry_partial (e : Environment) (model : Text) (vars : List Text) (filter : List Nat)
    (before : List (List Write)) (hb : ∀ tr ∈ before, ∃ net, Faulty net e.world ∧
      (model = "icon-ch1".toList → Whole net e.world) ∧ ∃ o, mainNet net e model vars filter tr o)
    (net : Net) (h : Faulty net e.world) (hw : model = "icon-ch1".toList → Whole net e.world) (last : List Write)
    (hl : mainNet net e model vars filter last .done) (t : Tree) :
    (t.write before.flatten).write last = t.write last := by
  have hd := (C176_faulty_partial net e model vars filter h hw).2.2.1 last hl
  obtain ⟨k1, k2⟩ := C87_main e model vars filter last
  refine (Tree.write_absorb (fun x hx => ?_) (fun x hx y hy he => ?_) t).1
  · obtain ⟨tr, htr, hx⟩ := List.mem_flatten.mp hx
    obtain ⟨net, h, hw, o, ht⟩ := hb tr htr
    exact k2 hd x ((C176_faulty_partial net e model vars filter h hw).2.1 tr o ht x hx)
  · have a := k1 .done hd x hx
    rw [he] at a
    exact mainExpected_functional a (k1 .done hd y hy)

end Verif.Props
