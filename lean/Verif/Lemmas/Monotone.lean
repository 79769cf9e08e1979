import Verif.Props.ProgramSwiss

/-!
# More answers, the same results

If one environment gives every answer that another one gives, all that can be read in the second can be read in the
first, with the same result.
-/

namespace Verif

/-- Every result of the first is the result of the second. -/
def Res.Le {α : Type} (a b : Res α) : Prop := ∀ x, a = .ok x → b = .ok x

namespace Res

theorem Le.refl {α : Type} (a : Res α) : Le a a := fun _ h => h

theorem Le.bind {α β : Type} {a b : Res α} {f g : α → Res β} (h : Le a b) (hf : ∀ x, Le (f x) (g x)) :
    Le (a >>= f) (b >>= g) := by
  intro y hy
  obtain ⟨x, h1, h2⟩ := Res.bind_eq_ok.mp hy
  exact Res.bind_eq_ok.mpr ⟨x, h x h1, hf x y h2⟩

theorem Le.okOr {α : Type} {a b : Option α} (h : ∀ x, a = some x → b = some x) : Le (Res.okOr a) (Res.okOr b) := by
  intro x hx
  cases a with
  | none => cases hx
  | some y =>
    rw [h y rfl]
    exact hx

theorem Le.mapM {α β : Type} {f g : α → Res β} (h : ∀ x, Le (f x) (g x)) (l : List α) :
    Le (Res.mapM f l) (Res.mapM g l) := by
  intro y hy
  rw [Res.mapM_ok_iff] at hy ⊢
  exact hy.imp fun a b hab => h a b hab

end Res

/-- Every file that can be read in the first world can be read in the second, with the same result. -/
structure World.Extends (w w' : World) : Prop where
  readSingle : ∀ name, Res.Le (w.readSingle name) (w'.readSingle name)
  readMulti : ∀ name, Res.Le (w.readMulti name) (w'.readMulti name)

namespace World.Extends

open Res (Le)

theorem of_downloads {w w' : World} (h1 : ∀ url body, w.download url = some body → w'.download url = some body)
    (h2 : ∀ name content, w.file name = some content → w'.file name = some content) (h3 : w'.bunzip = w.bunzip) :
    w.Extends w' := by
  have key : ∀ name, Le (w.stream name) (w'.stream name) := by
    intro name
    unfold World.stream
    split
    · rw [h3]
      exact .bind (.okOr (h1 name)) fun _ => .refl _
    · exact .okOr (h2 name)
  exact ⟨fun name => .bind (key name) fun _ => .refl _, fun name => .bind (key name) fun _ => .refl _⟩

variable {w w' : World} (h : w.Extends w')
include h

theorem readRectangular {T : Type} (name : Text) (missing : T) (transform : Fl → T) :
    Le (w.readRectangular name missing transform) (w'.readRectangular name missing transform) :=
  .bind (h.readSingle name) fun _ => .refl _

theorem readUnstructured {T : Type} (name : Text) (missing : T) (transform : Fl → T) (grid : UnstructuredGrid) :
    Le (w.readUnstructured name missing transform grid) (w'.readUnstructured name missing transform grid) :=
  .bind (h.readSingle name) fun _ => .refl _

theorem readMultiUnstructured {T : Type} (name : Text) (missing : T) (transform : Fl → T) (grid : UnstructuredGrid)
    (range : Option (Nat × Nat)) :
    Le (w.readMultiUnstructured name missing transform grid range)
      (w'.readMultiUnstructured name missing transform grid range) :=
  .bind (h.readMulti name) fun _ => .refl _

theorem dwdGrid (run : Run) (x : Dwd.SingleVar) (n : Nat) : Le (Props.dwdGrid w run x n) (Props.dwdGrid w' run x n) :=
  .bind (.refl _) fun _ => h.readRectangular _ _ _

theorem dwdHhl (run : Run) (levels : Nat × Nat) : Le (Dwd.readHhl w run levels) (Dwd.readHhl w' run levels) :=
  .mapM (fun _ => .bind (.refl _) fun _ => h.readRectangular _ _ _) _

theorem dwdClc (run : Run) (s : RunStep) (levels : Nat × Nat) :
    Le (Dwd.readClc w run s levels) (Dwd.readClc w' run s levels) :=
  .mapM (fun _ => .bind (.refl _) fun _ => h.readRectangular _ _ _) _

theorem dwdUV (run : Run) (x : Dwd.LevelVar) (s : RunStep) (levels : Nat × Nat) :
    Le (Dwd.readUV w run x s levels) (Dwd.readUV w' run x s levels) :=
  .mapM (fun _ => .bind (.refl _) fun _ => h.readRectangular _ _ _) _

theorem dwdLayers (run : Run) (v : LayerType) (n : Nat) : Le (Props.dwdLayers w run v n) (Props.dwdLayers w' run v n) := by
  cases v with
  | cloudPrecip =>
    exact .bind (h.dwdGrid _ _ _) fun _ => .bind (h.dwdGrid _ _ _) fun _ => .bind (h.dwdGrid _ _ _) fun _ =>
      .bind (.refl _) fun _ => .bind (h.dwdGrid _ _ _) fun _ => .bind (h.dwdGrid _ _ _) fun _ =>
      .bind (h.dwdGrid _ _ _) fun _ => .refl _
  | wind10m =>
    exact .bind (h.dwdGrid _ _ _) fun _ => .bind (h.dwdGrid _ _ _) fun _ => .bind (h.dwdGrid _ _ _) fun _ => .refl _
  | temp2m => exact .bind (h.dwdGrid _ _ _) fun _ => .refl _
  | verticalCloud => exact .bind (h.dwdHhl _ _) fun _ => .bind (h.dwdClc _ _ _) fun _ => .refl _
  | verticalWind =>
    exact .bind (h.dwdHhl _ _) fun _ => .bind (h.dwdUV _ _ _ _) fun _ => .bind (h.dwdUV _ _ _ _) fun _ => .refl _
  | weather => exact .refl _

theorem swissGrid (grid : UnstructuredGrid) (f : Fl → Fl) (s : RunStep) :
    Le (Swiss.readGrid w grid f s) (Swiss.readGrid w' grid f s) := h.readUnstructured _ _ _ _

theorem horConst (url : Text) : Le (Swiss.readHorConst w url) (Swiss.readHorConst w' url) :=
  .bind (h.readMulti _) fun _ => .refl _

end World.Extends

/-- The second web service gives all answers that the first one gives. -/
structure Swiss.Service.Extends (s s' : Swiss.Service) : Prop where
  assets : ∀ x, s.assets = .ok x → s'.assets = .ok x
  refTimes : ∀ x, s.refTimes = .ok x → s'.refTimes = .ok x
  search : ∀ y t x, s.search y t = .ok x → s'.search y t = .ok x

open Res (Le) in
theorem Swiss.Service.Extends.steps {s s' : Swiss.Service} (h : s.Extends s') (t : Instant) (x : Swiss.Variable) (b : Bool) :
    Le (Swiss.steps s t x b) (Swiss.steps s' t x b) :=
  .bind (h.search x t) fun _ => .refl _

open Res (Le) in
theorem Swiss.Service.Extends.swissSteps {s s' : Swiss.Service} (h : s.Extends s') (t : Instant) (v : LayerType) :
    Le (Props.swissSteps s t v) (Props.swissSteps s' t v) := by
  cases v
  case weather => exact .refl _
  all_goals exact h.steps _ _ _

open Res (Le) in
theorem swissLayers_le {w w' : World} {s s' : Swiss.Service} (hw : w.Extends w') (hs : s.Extends s')
    (grid : UnstructuredGrid) (url : Text) (t : Instant) (v : LayerType) (step : RunStep) :
    Le (Props.swissLayers w s grid url t v step) (Props.swissLayers w' s' grid url t v step) := by
  cases v with
  | cloudPrecip =>
    refine .bind (hs.steps _ _ _) fun _ => .bind (hs.steps _ _ _) fun _ => .bind (hs.steps _ _ _) fun _ =>
      .bind (.bind (.refl _) fun _ => ?_) fun _ => .bind ?_ fun _ => .refl _
    · exact .bind (hw.swissGrid _ _ _) fun _ => .bind (hw.swissGrid _ _ _) fun _ => .bind (hw.swissGrid _ _ _)
        fun _ => .refl _
    · exact .bind (.refl _) fun _ => .bind (.refl _) fun _ => .bind (hw.swissGrid _ _ _) fun _ =>
        .bind (hw.swissGrid _ _ _) fun _ => .refl _
  | wind10m =>
    refine .bind (hs.steps _ _ _) fun _ => .bind (hs.steps _ _ _) fun _ => .bind (hs.steps _ _ _) fun _ =>
      .bind (.bind (.refl _) fun _ => .bind (.refl _) fun _ => .bind (.refl _) fun _ => ?_) fun _ => .refl _
    exact .bind (hw.swissGrid _ _ _) fun _ => .bind (hw.swissGrid _ _ _) fun _ => .bind (hw.swissGrid _ _ _)
        fun _ => .refl _
  | temp2m =>
    exact .bind (hs.steps _ _ _) fun _ => .bind (.bind (.refl _) fun _ => .bind (hw.swissGrid _ _ _) fun _ => .refl _)
      fun _ => .refl _
  | verticalCloud =>
    exact .bind (hw.readMultiUnstructured _ _ _ _ _) fun _ => .bind (hs.steps _ _ _) fun _ =>
      .bind (.bind (.refl _) fun _ => .bind (hw.readMultiUnstructured _ _ _ _ _) fun _ => .refl _) fun _ => .refl _
  | verticalWind =>
    exact .bind (hw.readMultiUnstructured _ _ _ _ _) fun _ => .bind (hs.steps _ _ _) fun _ =>
      .bind (hs.steps _ _ _) fun _ =>
      .bind (.bind (.refl _) fun _ => .bind (.refl _) fun _ => .bind (hw.readMultiUnstructured _ _ _ _ _) fun _ =>
        .bind (hw.readMultiUnstructured _ _ _ _ _) fun _ => .refl _) fun _ => .refl _
  | weather => exact .refl _

/-- The second environment gives every usable answer that the first gives; the clock and the list of published runs are
the same.  Directories may differ. -/
structure Environment.Extends (e e' : Environment) : Prop where
  libm : e'.libm = e.libm
  world : e.world.Extends e'.world
  service : e.service.Extends e'.service
  calendar : e'.calendar = e.calendar
  today : e'.today = e.today
  now : e'.now = e.now
  available : e'.available = e.available

theorem Environment.Extends.refl (e : Environment) : e.Extends e :=
  ⟨rfl, ⟨fun _ _ h => h, fun _ _ h => h⟩, ⟨fun _ h => h, fun _ h => h, fun _ _ _ h => h⟩, rfl, rfl, rfl, rfl⟩

namespace Props

open MapTileRenderer

/-- The second options select everything that the first select. -/
def Narrower (vars : List Text) (filter : List Nat) (vars' : List Text) (filter' : List Nat) : Prop :=
  (∀ v, ChosenVar vars v → ChosenVar vars' v) ∧ ∀ s, Chosen filter s → Chosen filter' s

theorem Expected.mono {m : Libm} {run : Run} {steps : List RunStep} {filter filter' : List Nat}
    {read read' : RunStep → Res Layers} (hf : ∀ s, Chosen filter s → Chosen filter' s)
    (hr : ∀ s, Res.Le (read s) (read' s)) {p : Text} {c : Content} (h : Expected m run steps filter read p c) :
    Expected m run steps filter' read' p c := by
  obtain ⟨s, hs, hc, l, h1, rest⟩ := h
  exact ⟨s, hs, hf s hc, l, hr s l h1, rest⟩

theorem MainExpected.mono {e e' : Environment} (hx : e.Extends e') {model : Text} {vars vars' : List Text}
    {filter filter' : List Nat} (hn : Narrower vars filter vars' filter') {p : Text} {c : Content}
    (h : MainExpected e model vars filter p c) : MainExpected e' model vars' filter' p c := by
  rcases h with ⟨dwd, hm, run, hr, v, hv, h⟩ | ⟨hm, assets, hor, vert, grid, refTimes, t, a1, a2, a3, a4, a5, a6, v, hv,
    run, steps, b1, b2, h⟩
  · refine .inl ⟨dwd, hm, run, ?_, v, hn.1 v hv, ?_⟩
    · rw [hx.today, hx.now, hx.available]; exact hr
    · rw [hx.libm]
      exact h.mono hn.2 fun s => hx.world.dwdLayers _ _ _
  · refine .inr ⟨hm, assets, hor, vert, grid, refTimes, t, hx.service.assets _ a1, a2, a3, hx.world.horConst _ _ a4,
      hx.service.refTimes _ a5, ?_, v, hn.1 v hv, run, steps, ?_, hx.service.swissSteps _ _ _ b2, ?_⟩
    · rw [hx.calendar]; exact a6
    · rw [hx.calendar]; exact b1
    · rw [hx.libm]
      exact h.mono hn.2 fun s => swissLayers_le hx.world hx.service _ _ _ _ _

theorem findLatestRun_no_slash {model : FcModel} (hm : model = .iconD2 ∨ model = .iconEu) {today now : Date}
    {available : Text → Bool} {run : Run} (h : Dwd.findLatestRun model today now available = .ok run) :
    '/' ∉ run.name := by
  have hd : Dwd.IsDwd model := hm
  rcases Dwd.C51_cases hd available today now with ⟨name, hn, e⟩ | ⟨_, e⟩
  · rw [e] at h
    cases h
    have key : ∀ n ∈ Dwd.runNames, '/' ∉ n := by decide +kernel
    exact key _ hn.1
  · rw [e] at h
    cases h
    show '/' ∉ "21".toList
    decide +kernel

theorem mainExpected_functional {e : Environment} {model : Text} {vars : List Text} {filter : List Nat} {p : Text}
    {c c' : Content} (h : MainExpected e model vars filter p c) (h' : MainExpected e model vars filter p c') :
    c = c' := by
  have hne : "icon-ch1".toList ≠ "icon-d2".toList ∧ "icon-ch1".toList ≠ "icon-eu".toList ∧
      "icon-d2".toList ≠ "icon-eu".toList := by decide +kernel
  rcases h with ⟨dwd, hm, run, hr, h⟩ | ⟨hm, assets, hor, vert, grid, refTimes, t, a1, a2, a3, a4, a5, a6, h⟩ <;>
    rcases h' with ⟨dwd', hm', run', hr', h'⟩ |
      ⟨hm', assets', hor', vert', grid', refTimes', t', a1', a2', a3', a4', a5', a6', h'⟩
  · have e1 : dwd = dwd' := by
      rcases hm with ⟨m1, rfl⟩ | ⟨m1, rfl⟩ <;> rcases hm' with ⟨m2, rfl⟩ | ⟨m2, rfl⟩
      · rfl
      · exact absurd (m1.symm.trans m2) hne.2.2
      · exact absurd (m2.symm.trans m1) hne.2.2
      · rfl
    subst e1
    rw [hr] at hr'
    cases hr'
    exact dwdExpected_functional (findLatestRun_no_slash (hm.imp (·.2) (·.2)) hr) h h'
  · subst hm'
    rcases hm with ⟨m1, _⟩ | ⟨m1, _⟩
    · exact absurd m1 hne.1
    · exact absurd m1 hne.2.1
  · subst hm
    rcases hm' with ⟨m1, _⟩ | ⟨m1, _⟩
    · exact absurd m1 hne.1
    · exact absurd m1 hne.2.1
  · rw [a1] at a1'; cases a1'
    rw [a2] at a2'; cases a2'
    rw [a3] at a3'; cases a3'
    rw [a4] at a4'; cases a4'
    rw [a5] at a5'; cases a5'
    rw [a6] at a6'; cases a6'
    exact swissExpected_functional h h'

/-- Writes that are among others change nothing before or after these. -/
theorem Tree.write_absorb {a b : List Write} (h : ∀ w ∈ a, w ∈ b)
    (hf : ∀ w ∈ b, ∀ w' ∈ b, w.path = w'.path → w.content = w'.content) (t : Tree) :
    (t.write a).write b = t.write b ∧ (t.write b).write a = t.write b := by
  rw [← Tree.write_append, ← Tree.write_append]
  constructor
  · refine (Tree.write_congr (fun w => ?_) hf t).symm
    simp only [List.mem_append]
    exact ⟨.inr, fun h' => h'.elim (h w) id⟩
  · refine (Tree.write_congr (fun w => ?_) hf t).symm
    simp only [List.mem_append]
    exact ⟨.inl, fun h' => h'.elim id (h w)⟩

end Props

end Verif
