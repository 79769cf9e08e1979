import Verif.Props.DwdSuccess
import Verif.Props.Grib2Read

/-!
# C130: missing and incomplete downloads are reported, DWD
-/

namespace Verif.Props

open Verif MapTileRenderer Dwd Spec Grib2

/-- A file cannot be had: it is not there, the download broke off inside the message, or something else was
delivered (nothing at all, or for example a page with an explanation). -/
inductive Lost (w : World) (url : Text) : Prop
  | missing (h : w.download url = none)
  | cut (body : List UInt8) (msg : Msg) (n : Nat) (ok : msg.ok) (known : msg.product.known ∨ msg.coordinates = [])
      (hn : n < (encode msg).length) (h : w.download url = some body)
      (hb : (if isBz2 url then w.bunzip body else body) = (encode msg).take n)
  | other (body : List UInt8) (h : w.download url = some body)
      (hb : (if isBz2 url then w.bunzip body else body).take 4 ≠ [0x47, 0x52, 0x49, 0x42])

theorem Lost.read {w : World} {url : Text} (hu : isUrl url = true) (h : Lost w url) :
    w.stream url = .err ∨ ∃ s, w.stream url = .ok s ∧ readSingleDoc s = .err := by
  cases h with
  | missing h =>
    left
    unfold World.stream
    rw [if_pos hu, h]
    rfl
  | cut body msg n ok known hn h hb =>
    refine .inr ⟨(encode msg).take n, ?_, C03_truncated_encoding msg ok known n hn⟩
    unfold World.stream
    rw [if_pos hu, h, ← hb]
    rfl
  | other body h hb =>
    refine .inr ⟨_, ?_, C05_not_grib_partial _ hb⟩
    unfold World.stream
    rw [if_pos hu, h]
    rfl

theorem Lost.readSingle {w : World} {url : Text} (hu : isUrl url = true) (h : Lost w url) :
    w.readSingle url = .err := by
  unfold World.readSingle
  rcases h.read hu with h | ⟨s, h, h'⟩
  · rw [h]; rfl
  · rw [h, Res.bind_ok, h']; rfl

/-! ## Effects that end without a panic -/

/-- The work can be done somehow, and does not end with a panic. -/
structure Calm (e : Effect) : Prop where
  some : ∃ tr o, e tr o
  never : ∀ tr o, e tr o → o ≠ .panicked

theorem Calm.need {α : Type} {r : Res α} {f : α → Effect} (hr : r ≠ .panic) (h : ∀ a, r = .ok a → Calm (f a)) :
    Calm (Effect.need r f) := by
  cases r with
  | ok a => exact h a rfl
  | err => exact ⟨⟨[], .failed, rfl, rfl⟩, by rintro _ _ ⟨-, rfl⟩; simp⟩
  | panic => exact absurd rfl hr

theorem Calm.when {c : Bool} {e : Effect} (h : c = true → Calm e) : Calm (Effect.when c e) := by
  cases c with
  | true => exact h rfl
  | false => exact ⟨⟨[], .done, rfl, rfl⟩, by rintro _ _ ⟨-, rfl⟩; simp⟩

theorem Calm.seq {es : List Effect} (h : ∀ e ∈ es, Calm e) : Calm (Seq es) := by
  induction es with
  | nil => exact ⟨⟨_, _, .nil⟩, by rintro _ _ ⟨⟩; simp⟩
  | cons e es ih =>
    obtain ⟨⟨tr, o, he⟩, hn⟩ := h e List.mem_cons_self
    obtain ⟨⟨tr', o', hs⟩, hn'⟩ := ih fun e he => h e (List.mem_cons_of_mem _ he)
    refine ⟨?_, ?_⟩
    · cases o with
      | done => exact ⟨_, _, .cons he hs⟩
      | failed => exact ⟨_, _, .stop he (by simp)⟩
      | panicked => exact ⟨_, _, .stop he (by simp)⟩
    · intro t o' h
      cases h with
      | cons _ t => exact hn' _ _ t
      | stop h _ => exact hn _ _ h

theorem Calm.steps {m : Libm} {run : Run} {dirs : Text → Bool} {steps : List RunStep} {filter : List Nat}
    {read : RunStep → Res Layers} (h : ∀ s ∈ steps, Chosen filter s → read s = .err ∨
      ∃ l, read s = .ok l ∧ CanDraw m run.model.zoomRange l) :
    Calm (renderSteps m run dirs steps filter read) := by
  constructor
  · by_cases hf : ∃ s ∈ steps, Chosen filter s ∧ read s = .err
    · obtain ⟨tr, h⟩ := (C53_fails_iff m run dirs steps filter read).mpr hf
      exact ⟨_, _, h⟩
    · obtain ⟨tr, h⟩ := (C53_succeeds_iff m run dirs steps filter read).1.mpr fun s hs hc => by
        rcases h s hs hc with h | h
        · exact absurd ⟨s, hs, hc, h⟩ hf
        · exact h
      exact ⟨_, _, h⟩
  · rintro tr o ho rfl
    obtain ⟨s, hs, t, ht⟩ := parTry_panicked ho
    rcases step_cases ht with ⟨_, _, e⟩ | ⟨_, _, _, e⟩ | ⟨hc, hr, _⟩ | ⟨hc, l, hr, hj⟩
    · cases e
    · cases e
    · rcases h s hs hc with h | ⟨l, h, -⟩ <;> rw [h] at hr <;> cases hr
    · rcases h s hs hc with h | ⟨l', h, hd⟩
      · rw [h] at hr; cases hr
      · rw [h] at hr
        cases hr
        cases C85_directories m run dirs s.nr l hd t _ hj

theorem bind_no_panic {α β : Type} {r : Res α} {f : α → Res β} (hr : r ≠ .panic) (h : ∀ a, r = .ok a → f a ≠ .panic) :
    Res.bind r f ≠ .panic := by
  cases r with
  | ok a => exact h a rfl
  | err => intro h; cases h
  | panic => exact absurd rfl hr

theorem mapM_no_panic {α β : Type} {f : α → Res β} {l : List α} (h : ∀ a ∈ l, f a ≠ .panic) : Res.mapM f l ≠ .panic := by
  induction l with
  | nil => intro h; cases h
  | cons a l ih =>
    unfold Res.mapM
    refine bind_no_panic (h a List.mem_cons_self) fun b _ => ?_
    refine bind_no_panic (ih fun a ha => h a (List.mem_cons_of_mem _ ha)) fun bs _ => ?_
    intro h; cases h

/-! ## Layers -/

/-- A file of a run is complete and holds a field of the area, or it cannot be had. -/
def PublishedOrLost (w : World) (run : Run) (a : Area) (ni nj : Nat) (r : Req) : Prop :=
  AreaPublished w run a ni nj r ∨ ∃ url, fileUrl run r = .ok url ∧ Lost w url

theorem lost_not_readable {w : World} {run : Run} {r : Req} {url : Text} (hm : IsDwd run.model)
    (hu : fileUrl run r = .ok url) (h : Lost w url) : ¬ Readable w run r := by
  rintro ⟨url', body, doc, rest, hu', hd, hr⟩
  rw [hu] at hu'
  cases hu'
  obtain ⟨url', hu', h1, h2⟩ := C52_download hm r
  rw [hu] at hu'
  cases hu'
  rcases h.read h1 with h | ⟨s, h, h'⟩
  · unfold World.stream at h
    rw [if_pos h1, hd] at h
    cases h
  · unfold World.stream at h
    rw [if_pos h1, hd] at h
    have : Res.ok (if isBz2 url then w.bunzip body else body) = .ok s := h
    rw [if_pos h2] at this
    cases this
    rw [hr] at h'
    cases h'

theorem rect_no_panic {T : Type} {w : World} {run : Run} {r : Req} {a : Area} {ni nj : Nat} (hm : IsDwd run.model)
    (ha : a.Valid) (h : PublishedOrLost w run a ni nj r) (missing : T) (f : Fl → T) :
    Res.bind (fileUrl run r) (fun url => w.readRectangular url missing f) ≠ .panic := by
  rcases h with ⟨msg, h1, h2, -⟩ | ⟨url, hu, h⟩
  · obtain ⟨G, e, -⟩ := area_read hm ha h1 h2 missing f
    rw [e]
    intro h; cases h
  · obtain ⟨url', hu', h1, -⟩ := C52_download hm r
    rw [hu] at hu'
    cases hu'
    rw [hu]
    show w.readRectangular url missing f ≠ .panic
    unfold World.readRectangular
    rw [h.readSingle h1]
    intro h; cases h

theorem levels_no_panic {T : Type} {w : World} {run : Run} {r : Nat → Req} {a : Area} {ni nj : Nat} (hm : IsDwd run.model)
    (ha : a.Valid) {lo hi : Nat} (h : ∀ k, lo ≤ k → k ≤ hi → PublishedOrLost w run a ni nj (r k)) (missing : T) (f : Fl → T) :
    Res.mapM (fun k => Res.bind (fileUrl run (r k)) fun url => w.readRectangular url missing f) (rangeIncl lo hi)
      ≠ .panic :=
  mapM_no_panic fun k hk => rect_no_panic hm ha (h k (mem_rangeIncl.mp hk).1 (mem_rangeIncl.mp hk).2) missing f

theorem mapM_length {α β : Type} {f : α → Res β} {l : List α} {bs : List β} (h : Res.mapM f l = .ok bs) :
    bs.length = l.length := by
  rw [Res.mapM_ok_iff] at h
  exact h.length_eq.symm

theorem rangeIncl_length (a b : Nat) : (rangeIncl a b).length = b + 1 - a := by
  unfold rangeIncl
  simp

theorem layers_no_panic {w : World} {run : Run} {a : Area} {ni nj : Nat} (hm : IsDwd run.model) (ha : a.Valid)
    {v : LayerType} {n : Nat} (h : ∀ r, Uses run.model v n r → PublishedOrLost w run a ni nj r) :
    dwdLayers w run v n ≠ .panic := by
  have hlev : 0 < run.model.verticalLevels.2 + 1 - run.model.verticalLevels.1 := by
    rcases hm with h | h <;> rw [h] <;> decide
  have single : ∀ x k, Uses run.model v n (.single x k) → dwdGrid w run x k ≠ .panic := fun x k hx =>
    rect_no_panic hm ha (h _ hx) missingF32 id
  cases v with
  | cloudPrecip =>
    refine bind_no_panic (single _ _ (by simp [Uses])) fun c _ => ?_
    refine bind_no_panic (single _ _ (by simp [Uses])) fun p0 _ => ?_
    refine bind_no_panic (single _ _ (by simp [Uses])) fun p1 _ => ?_
    refine bind_no_panic ?_ fun l _ => ?_
    · unfold CloudPrecipLayer.new
      split <;> [skip; split] <;> (intro h; cases h)
    refine bind_no_panic (single _ _ (by simp [Uses])) fun c _ => ?_
    refine bind_no_panic (single _ _ (by simp [Uses])) fun e _ => ?_
    refine bind_no_panic (single _ _ (by simp [Uses])) fun x _ => ?_
    refine bind_no_panic ?_ fun y _ h => by cases h
    unfold WeatherLayer.new
    split <;> [skip; split] <;> (intro h; cases h)
  | wind10m =>
    refine bind_no_panic (single _ _ (by simp [Uses])) fun u _ => ?_
    refine bind_no_panic (single _ _ (by simp [Uses])) fun v _ => ?_
    refine bind_no_panic (single _ _ (by simp [Uses])) fun g _ => ?_
    refine bind_no_panic ?_ fun y _ h => by cases h
    unfold WindLayer.new
    split <;> [skip; split <;> [skip; split]] <;> (intro h; cases h)
  | temp2m => exact bind_no_panic (single _ _ (by simp [Uses])) fun t _ h => by cases h
  | verticalCloud =>
    refine bind_no_panic (levels_no_panic (r := fun k => .hhl k) hm ha (fun k k1 k2 => h _ ⟨k, k1, k2, .inl rfl⟩) _ _)
      fun H h1 => ?_
    refine bind_no_panic (levels_no_panic (r := fun k => .level .clc n k) hm ha
      (fun k k1 k2 => h _ ⟨k, k1, k2, .inr rfl⟩) _ _) fun C h2 => ?_
    refine bind_no_panic ?_ fun y _ h => by cases h
    have e1 := mapM_length h1
    have e2 := mapM_length h2
    rw [rangeIncl_length] at e1 e2
    unfold VerticalCloudLayer.new
    simp [e1, e2, hlev.ne']
  | verticalWind =>
    refine bind_no_panic (levels_no_panic (r := fun k => .hhl k) hm ha (fun k k1 k2 => h _ ⟨k, k1, k2, .inl rfl⟩) _ _)
      fun H h1 => ?_
    refine bind_no_panic (levels_no_panic (r := fun k => .level .u n k) hm ha
      (fun k k1 k2 => h _ ⟨k, k1, k2, .inr (.inl rfl)⟩) _ _) fun U h2 => ?_
    refine bind_no_panic (levels_no_panic (r := fun k => .level .v n k) hm ha
      (fun k k1 k2 => h _ ⟨k, k1, k2, .inr (.inr rfl)⟩) _ _) fun V h3 => ?_
    refine bind_no_panic ?_ fun y _ h => by cases h
    have e1 := mapM_length h1
    have e2 := mapM_length h2
    have e3 := mapM_length h3
    rw [rangeIncl_length] at e1 e2 e3
    unfold VerticalWindLayer.new
    simp [e1, e2, e3, hlev.ne']
  | weather => intro h; cases h

theorem chosen_one {v v' : LayerType} (h : ChosenVar [v.name] v') : v' = v := by
  rcases h with h | h
  · cases h
  · have h : v'.name = v.name := by simpa using h
    revert h
    cases v <;> cases v' <;> decide

/-- The layers of a step are an error exactly if a file cannot be had. -/
theorem layers_or_error {m : Libm} (hm : AccurateRow m) {w : World} {run : Run} {a : Area} {ni nj : Nat}
    (hd : IsDwd run.model) (ha : a.Valid) {v : LayerType} (hw : v ≠ .weather) {s : RunStep} (hs : s ∈ run.model.forecastSteps)
    (h : ∀ r, Uses run.model v s.nr r → PublishedOrLost w run a ni nj r) :
    dwdLayers w run v s.nr = .err ∨ ∃ l, dwdLayers w run v s.nr = .ok l ∧ CanDraw m run.model.zoomRange l := by
  by_cases hall : ∀ r, Uses run.model v s.nr r → AreaPublished w run a ni nj r
  · right
    have hv : ChosenVar [v.name] v := .inr (by simp)
    obtain ⟨⟨tr, ht⟩, -⟩ := C105_run m hm w (fun _ => true) [v.name] [s.nr] run hd a ha ni nj
      (fun v' hv' s' hs' hc' r hr => by
        cases chosen_one hv'
        rcases hc' with hc' | hc'
        · cases hc'
        · rw [List.mem_singleton] at hc'
          rw [hc'] at hr
          exact hall r hr)
      (fun hv' k k1 k2 => by
        rcases hv' with hv' | hv' <;> cases chosen_one hv' <;> exact hall _ ⟨k, k1, k2, .inl rfl⟩)
    exact ((C90_dwd_iff m w _ _ _ run).1.mp ⟨tr, ht⟩).1 v hv hw s hs (.inr (by simp))
  · left
    push Not at hall
    obtain ⟨r, hr, hn⟩ := hall
    cases he : dwdLayers w run v s.nr with
    | err => rfl
    | panic => exact absurd he (layers_no_panic hd ha h)
    | ok l =>
      obtain ⟨url, hu, hl⟩ := (h r hr).resolve_left hn
      exact absurd (uses_readable hd he r hr) (lost_not_readable hd hu hl)

/-! ## The run -/

/-- C130: if each file needed for the selected variables and steps is complete or cannot be had, rendering a
DWD run ends with success or with an error, never with a panic; with success exactly if all of them are
complete. -/
theorem C130_run (m : Libm) (hm : AccurateRow m) (w : World) (dirs : Text → Bool) (vars : List Text) (filter : List Nat)
    (run : Run) (hd : IsDwd run.model) (a : Area) (ha : a.Valid) (ni nj : Nat)
    (hp : ∀ v, ChosenVar vars v → ∀ s ∈ run.model.forecastSteps, Chosen filter s → ∀ r, Uses run.model v s.nr r →
      PublishedOrLost w run a ni nj r)
    (hh : ChosenVar vars .verticalCloud ∨ ChosenVar vars .verticalWind → ∀ k, run.model.verticalLevels.1 ≤ k →
      k ≤ run.model.verticalLevels.2 → PublishedOrLost w run a ni nj (.hhl k)) :
    (∃ tr o, Dwd.renderRun m w dirs vars filter run tr o) ∧
    ∀ tr o, Dwd.renderRun m w dirs vars filter run tr o → o ≠ .panicked ∧
      (o = .done ↔
        (∀ v, ChosenVar vars v → ∀ s ∈ run.model.forecastSteps, Chosen filter s → ∀ r, Uses run.model v s.nr r →
          AreaPublished w run a ni nj r) ∧
        (ChosenVar vars .verticalCloud ∨ ChosenVar vars .verticalWind → ∀ k, run.model.verticalLevels.1 ≤ k →
          k ≤ run.model.verticalLevels.2 → AreaPublished w run a ni nj (.hhl k))) := by
  have hsteps : ∀ (v : LayerType) (read : RunStep → Res Layers), v ≠ .weather →
      (∀ s ∈ run.model.forecastSteps, read s = dwdLayers w run v s.nr) →
      Calm (Effect.when (variableChosen vars v) (renderSteps m run dirs run.model.forecastSteps filter read)) := by
    intro v read hv hr
    refine Calm.when fun hc => Calm.steps fun s hs hcs => ?_
    rw [hr s hs]
    exact layers_or_error hm hd ha hv hs (hp v ((variableChosen_iff _ _).mp hc) s hs hcs)
  have calm : Calm (Dwd.renderRun m w dirs vars filter run) := by
    obtain ⟨tp, htp, _⟩ := C55_dwd run.model
    have hcp : Dwd.renderCloudPrecip m w dirs filter run = renderSteps m run dirs run.model.forecastSteps filter
        (cloudPrecipLayers w run run.model.forecastSteps tp) := by
      unfold Dwd.renderCloudPrecip Effect.need
      rw [htp]
    refine Calm.seq fun e he => ?_
    simp only [List.mem_cons, List.not_mem_nil, or_false] at he
    rcases he with rfl | rfl | rfl | rfl
    · rw [hcp]
      exact hsteps .cloudPrecip _ (by simp) (fun s hs => cloudPrecip_eq w run htp hs)
    · exact hsteps .wind10m _ (by simp) (fun s _ => wind_eq w run s)
    · exact hsteps .temp2m _ (by simp) (fun s _ => temp_eq w run s)
    · refine Calm.when fun hc => Calm.need ?_ fun hhl h => Calm.seq fun e he => ?_
      · have hc : ChosenVar vars .verticalCloud ∨ ChosenVar vars .verticalWind := by
          unfold ChosenVar
          simp only [Bool.or_eq_true, List.isEmpty_iff, List.contains_iff_mem] at hc
          tauto
        exact levels_no_panic (r := fun k => .hhl k) hd ha (hh hc) _ _
      · simp only [List.mem_cons, List.not_mem_nil, or_false] at he
        rcases he with rfl | rfl
        · exact hsteps .verticalCloud _ (by simp) (fun s _ => verticalCloud_eq w run h s)
        · exact hsteps .verticalWind _ (by simp) (fun s _ => verticalWind_eq w run h s)
  refine ⟨calm.some, fun tr o ht => ⟨calm.never tr o ht, ?_, fun h => ?_⟩⟩
  · rintro rfl
    refine ⟨fun v hv s hs hc r hr => ?_, fun hv k k1 k2 => ?_⟩
    · refine (hp v hv s hs hc r hr).resolve_right ?_
      rintro ⟨url, hu, hl⟩
      exact lost_not_readable hd hu hl (C90_dwd m w dirs vars filter run hd tr ht v hv s hs hc r hr)
    · refine (hh hv k k1 k2).resolve_right ?_
      rintro ⟨url, hu, hl⟩
      obtain ⟨hhl, e⟩ := ((C90_dwd_iff m w dirs vars filter run).1.mp ⟨tr, ht⟩).2 hv
      exact lost_not_readable hd hu hl (levels_ok (r := fun k => .hhl k) hd e k1 k2)
  · exact (C105_run m hm w dirs vars filter run hd a ha ni nj h.1 h.2).2 tr o ht

end Verif.Props
