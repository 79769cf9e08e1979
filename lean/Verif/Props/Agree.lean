import Verif.Props.Once
import Verif.Props.Pixels

/-!
# C178: the charts and the data files of a call agree
-/

namespace Verif.Props

open Verif MapTileRenderer Dwd Colors Metobin Physics
open Verif.Spec (Legend windKnots windColors tempColors)

/-! ## Files of a step come from the same layers -/

/-- Whatever happens, all files of a variable at a step are made from the same layers, with a given property. -/
def Sourced (m : Libm) (run : Run) (P : Layers → Prop) (e : Effect) (S : Text → Prop) : Prop :=
  ∀ tr o, e tr o → (∀ x ∈ tr, S x.path) ∧ ∀ v step, (∃ x ∈ tr, StepFile run v step x.path) → ∃ l, P l ∧
    ∀ x ∈ tr, ∀ out : Output, out.variable = v → x.path = out.path run step → FileOf m run.model.zoomRange l out x.content

section
variable {m : Libm} {run : Run} {P : Layers → Prop}

theorem Sourced.mono {e : Effect} {S S' : Text → Prop} (h : Sourced m run P e S) (hs : ∀ p, S p → S' p) :
    Sourced m run P e S' := fun tr o ht => ⟨fun x hx => hs _ ((h tr o ht).1 x hx), (h tr o ht).2⟩

theorem Sourced.nothing {S : Text → Prop} {o' : Outcome} : Sourced m run P (fun tr o => tr = [] ∧ o = o') S := by
  rintro tr o ⟨rfl, rfl⟩
  exact ⟨fun x hx => (by cases hx), fun v step ⟨x, hx, _⟩ => (by cases hx)⟩

theorem Sourced.need {α : Type} {r : Res α} {f : α → Effect} {S : Text → Prop}
    (h : ∀ a, r = .ok a → Sourced m run P (f a) S) : Sourced m run P (Effect.need r f) S := by
  cases r with
  | ok a => exact h a rfl
  | err => exact .nothing
  | panic => exact .nothing

theorem Sourced.needs {α : Type} {r : May α} {f : α → Effect} {S : Text → Prop}
    (h : ∀ a, r (.ok a) → Sourced m run P (f a) S) : Sourced m run P (Effect.needs r f) S := by
  rintro tr o (⟨_, hr⟩ | ⟨_, hr⟩ | ⟨a, ha, hf⟩)
  · exact Sourced.nothing tr o hr
  · exact Sourced.nothing tr o hr
  · exact h a ha tr o hf

theorem Sourced.when {c : Bool} {e : Effect} {S : Text → Prop} (h : Sourced m run P e S) :
    Sourced m run P (Effect.when c e) S := by
  cases c with
  | true => exact h
  | false => exact .nothing

theorem Sourced.seq_nil {S : Text → Prop} : Sourced m run P (Seq []) S := by
  intro tr o h
  cases h
  exact ⟨fun x hx => (by cases hx), fun v step ⟨x, hx, _⟩ => (by cases hx)⟩

theorem Sourced.seq_cons {e : Effect} {es : List Effect} {S S' : Text → Prop} (h : Sourced m run P e S)
    (hs : Sourced m run P (Seq es) S')
    (hd : ∀ v step p q, StepFile run v step p → StepFile run v step q → S p → ¬S' q) :
    Sourced m run P (Seq (e :: es)) fun p => S p ∨ S' p := by
  intro tr o ht
  cases ht with
  | cons h1 h2 =>
    obtain ⟨a1, a2⟩ := h _ _ h1
    obtain ⟨b1, b2⟩ := hs _ _ h2
    refine ⟨fun x hx => (List.mem_append.mp hx).imp (a1 x) (b1 x), ?_⟩
    rintro v step ⟨x, hx, hk⟩
    rcases List.mem_append.mp hx with hx | hx
    · obtain ⟨l, hp, hl⟩ := a2 v step ⟨x, hx, hk⟩
      refine ⟨l, hp, fun y hy out hv he => ?_⟩
      rcases List.mem_append.mp hy with hy | hy
      · exact hl y hy out hv he
      · exact absurd (b1 y hy) (hd v step _ _ hk ⟨out, hv, he⟩ (a1 x hx))
    · obtain ⟨l, hp, hl⟩ := b2 v step ⟨x, hx, hk⟩
      refine ⟨l, hp, fun y hy out hv he => ?_⟩
      rcases List.mem_append.mp hy with hy | hy
      · exact absurd (b1 x hx) (hd v step _ _ ⟨out, hv, he⟩ hk (a1 y hy))
      · exact hl y hy out hv he
  | stop h1 _ => exact ⟨fun x hx => .inl ((h _ _ h1).1 x hx), (h _ _ h1).2⟩

theorem Sourced.parTry {α : Type} {work : α → Effect} {items : List α} {S : α → Text → Prop}
    (h : ∀ a ∈ items, Sourced m run P (work a) (S a))
    (hd : ∀ i j (hi : i < items.length) (hj : j < items.length), i ≠ j → ∀ v step p q, StepFile run v step p →
      StepFile run v step q → S items[i] p → ¬S items[j] q) :
    Sourced m run P (ParTry work items) fun p => ∃ a ∈ items, S a p := by
  intro tr o ht
  cases ht with
  | mk tagged ends _ tags ran skipped panicked failed =>
    have key : ∀ i (hi : i < items.length), ∀ tr, tr = (tagged.filter fun e => e.1 == i).map Prod.snd →
        (∀ x ∈ tr, S items[i] x.path) ∧ ∀ v step, (∃ x ∈ tr, StepFile run v step x.path) → ∃ l, P l ∧
          ∀ x ∈ tr, ∀ out : Output, out.variable = v → x.path = out.path run step →
            FileOf m run.model.zoomRange l out x.content := by
      rintro i hi tr rfl
      cases he : ends i with
      | none =>
        rw [(skipped i hi he).1]
        exact ⟨fun x hx => (by cases hx), fun v step ⟨x, hx, _⟩ => (by cases hx)⟩
      | some oi => exact h _ (List.getElem_mem hi) _ _ (ran i hi oi he)
    have place : ∀ t ∈ tagged, ∃ hi : t.1 < items.length, S items[t.1] t.2.path := fun t ht =>
      ⟨tags t ht, (key t.1 (tags t ht) _ rfl).1 t.2 (List.mem_map.mpr ⟨t, List.mem_filter.mpr ⟨ht, by simp⟩, rfl⟩)⟩
    refine ⟨fun x hx => ?_, ?_⟩
    · obtain ⟨t, ht, rfl⟩ := List.mem_map.mp hx
      obtain ⟨hi, hs⟩ := place t ht
      exact ⟨_, List.getElem_mem hi, hs⟩
    · rintro v step ⟨x, hx, hk⟩
      obtain ⟨t, ht, rfl⟩ := List.mem_map.mp hx
      obtain ⟨hi, hs⟩ := place t ht
      obtain ⟨l, hp, hl⟩ := (key t.1 hi _ rfl).2 v step
        ⟨t.2, List.mem_map.mpr ⟨t, List.mem_filter.mpr ⟨ht, by simp⟩, rfl⟩, hk⟩
      refine ⟨l, hp, fun y hy out hv he => ?_⟩
      obtain ⟨u, hu, rfl⟩ := List.mem_map.mp hy
      obtain ⟨hj, hs'⟩ := place u hu
      by_cases e : u.1 = t.1
      · exact hl u.2 (List.mem_map.mpr ⟨u, List.mem_filter.mpr ⟨hu, by simp [e]⟩, rfl⟩) out hv he
      · exact absurd hs' (hd t.1 u.1 hi hj (Ne.symm e) v step _ _ hk ⟨out, hv, he⟩ hs)

theorem source_job (hn : '/' ∉ run.name) (dirs : Text → Bool) (step : Nat) {l : Layers} (hp : P l) :
    Sourced m run P (RunJob m run dirs step l.job) (StepFile run (variableOf l) step) := by
  intro tr o h
  have ha := (job_any h).2.1
  refine ⟨fun x hx => ?_, fun v s _ => ⟨l, hp, fun x hx out _ he => ?_⟩⟩
  · obtain ⟨out, hf, hp⟩ := ha x hx
    exact ⟨out, hf.variable, hp⟩
  · obtain ⟨out', hf, he'⟩ := ha x hx
    obtain ⟨-, rfl⟩ := C54_same_run run hn (he.symm.trans he')
    exact hf

theorem source_steps_net (hn : '/' ∉ run.name) (dirs : Text → Bool) {steps : List RunStep}
    (hs : (steps.map RunStep.nr).Nodup) (filter : List Nat) {read : RunStep → May Layers} {v : LayerType}
    (hv : ∀ s l, read s (.ok l) → variableOf l = v ∧ P l) :
    Sourced m run P (renderStepsNet m run dirs steps filter read) (RunFile run v) := by
  have key := Sourced.parTry (m := m) (run := run) (P := P) (work := runStepNet m run dirs filter read) (items := steps)
    (S := fun s => StepFile run v s.nr) (fun s _ => ?_) ?_
  · refine key.mono ?_
    rintro p ⟨s, _, h⟩
    exact ⟨s.nr, h⟩
  · intro tr o h
    unfold runStepNet at h
    split at h
    · refine Sourced.needs (fun l hl => ?_) tr o h
      exact (hv s l hl).1 ▸ source_job hn dirs s.nr (hv s l hl).2
    · exact Sourced.nothing tr o h
  · rintro i j hi hj hij v' step p q ⟨o1, _, e1⟩ ⟨o2, _, e2⟩ ⟨o3, _, e3⟩ ⟨o4, _, e4⟩
    have h1 := (C54_same_run run hn (e1.symm.trans e3)).1
    have h2 := (C54_same_run run hn (e2.symm.trans e4)).1
    refine hij ((List.Nodup.getElem_inj_iff hs (i := i) (j := j) (hi := by simpa using hi) (hj := by simpa using hj)).mp ?_)
    simpa using h1.symm.trans h2

theorem StepFile.only (hn : '/' ∉ run.name) {v v' : LayerType} {step : Nat} {p : Text} (h : StepFile run v step p)
    (h' : RunFile run v' p) : v = v' := RunFile.only hn ⟨step, h⟩ h'

theorem source_pair (hn : '/' ∉ run.name) {c c' : Bool} {e e' : Effect}
    (h : Sourced m run P e (RunFile run .verticalCloud)) (h' : Sourced m run P e' (RunFile run .verticalWind)) :
    Sourced m run P (Seq [Effect.when c e, Effect.when c' e'])
      fun p => RunFile run .verticalCloud p ∨ RunFile run .verticalWind p ∨ False :=
  .seq_cons (.when h) (.seq_cons (.when h') .seq_nil fun _ _ p _ _ _ _ h => h) fun v step p q k k' h h' => by
    rcases h' with h' | h'
    · cases (k.only hn h).symm.trans (k'.only hn h')
    · exact h'

theorem source_parts (hn : '/' ∉ run.name) {c1 c2 c3 c4 : Bool} {e1 e2 e3 e4 : Effect}
    (h1 : Sourced m run P e1 (RunFile run .cloudPrecip)) (h2 : Sourced m run P e2 (RunFile run .wind10m))
    (h3 : Sourced m run P e3 (RunFile run .temp2m))
    (h4 : Sourced m run P e4 fun p => RunFile run .verticalCloud p ∨ RunFile run .verticalWind p ∨ False) :
    Sourced m run P (Seq [Effect.when c1 e1, Effect.when c2 e2, Effect.when c3 e3, Effect.when c4 e4])
      fun p => ∃ v, RunFile run v p := by
  have no : ∀ {v v' w : LayerType} {step : Nat} {p q : Text}, v ≠ v' → StepFile run w step p → StepFile run w step q →
      RunFile run v p → ¬RunFile run v' q := fun hne k k' h h' => hne ((k.only hn h).symm.trans (k'.only hn h'))
  refine Sourced.mono (.seq_cons (.when h1) (.seq_cons (.when h2) (.seq_cons (.when h3) (.seq_cons (.when h4)
    (.seq_nil (S := fun _ => False)) fun _ _ p _ _ _ _ h => h) ?_) ?_) ?_) ?_
  · rintro v step p q k k' h ((h' | h' | h') | h')
    · exact no (by decide) k k' h h'
    · exact no (by decide) k k' h h'
    · exact h'
    · exact h'
  · rintro v step p q k k' h (h' | (h' | h' | h') | h')
    · exact no (by decide) k k' h h'
    · exact no (by decide) k k' h h'
    · exact no (by decide) k k' h h'
    · exact h'
    · exact h'
  · rintro v step p q k k' h (h' | h' | (h' | h' | h') | h')
    · exact no (by decide) k k' h h'
    · exact no (by decide) k k' h h'
    · exact no (by decide) k k' h h'
    · exact no (by decide) k k' h h'
    · exact h'
    · exact h'
  · rintro p (h | h | h | (h | h | h) | h)
    · exact ⟨_, h⟩
    · exact ⟨_, h⟩
    · exact ⟨_, h⟩
    · exact ⟨_, h⟩
    · exact ⟨_, h⟩
    · exact h.elim
    · exact h.elim

end

/-! ## Grids that are read -/

/-- The grid of a table of values. -/
def Regular {T : Type} (G : LatLonValueGrid T) : Prop := ∃ ext, G.grid = LatLonGrid.new G.dims ext

/-- Tables of temperatures and winds lie on one regular grid. -/
def OneGrid : Layers → Prop
  | .temp l => Regular l.temp
  | .wind l => Regular l.zonal ∧ l.meridional.grid = l.zonal.grid
  | _ => True

theorem regular_new {T : Type} {vs : List T} {missing : T} {dims : Nat × Nat} {ext : LatLonExtent} :
    Regular (LatLonValueGrid.new vs missing dims ext) := ⟨ext, rfl⟩

theorem may_of {α : Type} {r : Res α} {b : α} (h : (May.of r) (.ok b)) : r = .ok b := h.symm

theorem regular_dwd {net : Net} {w : World} {run : Run} {x : SingleVar} {s : RunStep} {G : LatLonValueGrid Fl}
    (h : net.dwdGrid w run x s (.ok G)) : Regular G := by
  obtain ⟨_, _, h⟩ := may_bind h
  obtain ⟨doc, _, h⟩ := may_bind h
  have h := may_of h
  unfold Grib2.createRegularGrid at h
  obtain ⟨_, _, h⟩ := bind_ok' h
  obtain ⟨⟨_, _⟩, _, h⟩ := bind_ok' h
  cases h
  exact regular_new

theorem regular_swiss {net : Net} {w : World} {grid : UnstructuredGrid} {f : Fl → Fl} {s : RunStep} {G : LatLonValueGrid Fl}
    (h : net.swissGrid w grid f s (.ok G)) : Regular G := by
  obtain ⟨doc, _, h⟩ := may_bind h
  have h := may_of h
  unfold Grib2.convertUnstructured at h
  obtain ⟨_, _, h⟩ := bind_ok' h
  obtain ⟨g, h, e⟩ := bind_ok' h
  cases e
  unfold UnstructuredValueGrid.createRegularGrid at h
  simp only at h
  split at h
  · cases h
  · obtain ⟨_, _, h⟩ := bind_ok' h
    cases h
    exact regular_new

theorem feq_eq {a b : Fl} (h : Fl.feq a b = true) : a = b := by
  cases a <;> cases b <;> simp_all [Fl.feq]

theorem oneGrid_wind {u v g : LatLonValueGrid Fl} {l : WindLayer} (hu : Regular u) (hv : Regular v)
    (h : WindLayer.new u v (some g) = .ok l) : OneGrid (.wind l) := by
  unfold WindLayer.new at h
  split at h
  · cases h
  next h1 =>
    split at h
    · cases h
    next h2 =>
      split at h
      · cases h
      · cases h
        refine ⟨hu, ?_⟩
        obtain ⟨a, ha⟩ := hu
        obtain ⟨b, hb⟩ := hv
        have e1 : u.dims = v.dims := by simpa [sameDims] using h1
        have e2 : u.grid.extent = v.grid.extent := by
          have h2 : (LatLonExtent.eq u.grid.extent v.grid.extent) = true := by simpa [sameExtent] using h2
          simp only [LatLonExtent.eq, LatLon.eq, Bool.and_eq_true] at h2
          obtain ⟨⟨a1, a2⟩, b1, b2⟩ := h2
          generalize u.grid.extent = A at *
          generalize v.grid.extent = B at *
          obtain ⟨⟨_, _⟩, ⟨_, _⟩⟩ := A
          obtain ⟨⟨_, _⟩, ⟨_, _⟩⟩ := B
          cases feq_eq a1
          cases feq_eq a2
          cases feq_eq b1
          cases feq_eq b2
          rfl
        show v.grid = u.grid
        rw [ha, hb] at e2
        rw [ha, hb, e1, show a = b from e2]


/-! ## Bytes of cells -/

theorem foldl_ok_mem {α β : Type} {f : α → β → Res α} (l : List β) : ∀ {a r : α}, Res.foldl f a l = .ok r →
    ∀ y ∈ l, ∃ a' r', f a' y = .ok r' := by
  induction l with
  | nil => intro a r _ y hy; cases hy
  | cons b l ih =>
    intro a r h y hy
    simp only [Res.foldl] at h
    obtain ⟨a1, h1, h2⟩ := bind_ok' h
    rcases List.mem_cons.mp hy with rfl | hy
    · exact ⟨a, a1, h1⟩
    · exact ih h2 y hy

theorem forCells_ok {w h : Nat} {f : Nat → Nat → Res (List UInt8)} {bytes : List UInt8} (hf : forCells w h f = .ok bytes) :
    ∀ x y, x < w → y < h → ∃ b, f x y = .ok b := by
  intro x y hx hy
  unfold forCells at hf
  obtain ⟨_, _, h1⟩ := foldl_ok_mem _ hf y (List.mem_range.mpr hy)
  obtain ⟨_, _, h2⟩ := foldl_ok_mem _ h1 x (List.mem_range.mpr hx)
  obtain ⟨b, hb, _⟩ := bind_ok' h2
  exact ⟨b, hb⟩

/-- A lookup that succeeds for all cells succeeds everywhere. -/
theorem lookup_total {G : LatLonValueGrid Fl} {w h : Nat} (hd : G.dims = (w, h))
    (ht : ∀ x y, x < w → y < h → ∃ v, G.getValueByXY x y = .ok v) :
    ∃ V : Nat → Option Fl, ∀ x y, G.getValueByXY x y = .ok ((pointNr w h x y).bind V) := by
  classical
  have key : ∀ k, ∃ v : Option Fl, k < w * h → G.getValueByXY (k % w) (k / w) = .ok v := by
    intro k
    by_cases hk : k < w * h
    · have hw : 0 < w := by rcases Nat.eq_zero_or_pos w with rfl | h <;> simp_all
      obtain ⟨v, hv⟩ := ht (k % w) (k / w) (Nat.mod_lt _ hw) (Nat.div_lt_of_lt_mul hk)
      exact ⟨v, fun _ => hv⟩
    · exact ⟨none, fun h => absurd h hk⟩
  choose V hV using key
  refine ⟨V, fun x y => ?_⟩
  unfold pointNr
  split
  next hxy =>
    have hk : y * w + x < w * h := pointNr_lt (ni := w) (nj := h) (x := x) (y := y) (by unfold pointNr; rw [if_pos hxy])
    have := hV _ hk
    rw [show (y * w + x) % w = x by rw [Nat.mul_comm, Nat.mul_add_mod, Nat.mod_eq_of_lt hxy.1],
      show (y * w + x) / w = y by
        rw [Nat.mul_comm, Nat.mul_add_div (by omega), Nat.div_eq_of_lt hxy.1, Nat.add_zero]] at this
    exact this
  next hxy =>
    unfold LatLonValueGrid.getValueByXY LatLonGrid.getIndexByXY
    have : (x ≥ G.grid.dimensions.1 || y ≥ G.grid.dimensions.2) = true := by
      have e : G.grid.dimensions = (w, h) := hd
      rw [e]
      simp only [Bool.or_eq_true, decide_eq_true_eq]
      omega
    rw [this]
    rfl

theorem lookup_position {G : LatLonValueGrid Fl} {w h : Nat} {V : Nat → Option Fl}
    (hV : ∀ x y, G.getValueByXY x y = .ok ((pointNr w h x y).bind V)) (p : LatLon) :
    G.getValueByLatLon p = .ok ((nearest G.grid w h p).bind V) := by
  unfold LatLonValueGrid.getValueByLatLon nearest
  cases G.grid.getXYByLatLon p with
  | none => rfl
  | some q => exact hV _ _

/-! ## Pixels -/

/-- The position of pixel (j,i) of a tile: the corners of the tile, and 256 equal parts between them. -/
def pixelPosition (m : Libm) (t : MapTileCoord) (i j : Nat) : LatLon :=
  match MapTileCoord.toPosition m t, MapTileCoord.toPosition m ⟨t.x + 1, t.y + 1, t.zoom⟩ with
  | .ok start, .ok stop => LatLon.new
      (Fl.add f32 start.lat (Fl.mul f32 (Fl.ofNat f32 i) (Fl.div f32 (Fl.sub f32 stop.lat start.lat) (.fin 256))))
      (Fl.add f32 start.lon (Fl.mul f32 (Fl.ofNat f32 j) (Fl.div f32 (Fl.sub f32 stop.lon start.lon) (.fin 256))))
  | _, _ => ⟨.nan, .nan⟩

theorem pixel_color (m : Libm) {t : MapTileCoord} (hz : t.zoom ≤ 31) {color : LatLon → Res (Option Color)}
    {v : LatLon → Option Color} (hv : ∀ p, color p = .ok (v p)) {d : Drawable}
    (hd : createSingleTile m color t id = .ok d) {i j : Nat} (hi : i < 256) (hj : j < 256) :
    d.pixel j i = some ((v (pixelPosition m t i j)).getD Color.transparent) := by
  obtain ⟨hx, hy⟩ := tile_small hd
  obtain ⟨start, stop, d', e1, e2, e3, -, w1, w2, w3⟩ := C33_tile m t hz hx hy color v hv id
  rw [hd] at e3
  cases e3
  rw [w3 i j hi hj]
  simp only [pixelPosition, e1, e2]
  generalize v _ = o
  cases o <;> rfl

/-! ## Temperature -/

/-- A colour of the temperature chart and a byte of the temperature file do not contradict each other: the
temperature in the file, a multiple of half a degree, lies within the class of the colour or on its boundary.  (The number 0
also stands for values that are no numbers, which have the colour of the last class.) -/
def TempAgrees (col : Color) (b : UInt8) : Prop :=
  (col = Color.transparent ∧ b = 255) ∨ ∃ i : Nat, tempColors[i]? = some col ∧
    ((i = 28 ∧ b = 0) ∨
      ((i = 0 ∨ 2 * (i : Rat) - 18 ≤ ((b.toNat : Rat) - 128) / 2) ∧ (i = 28 ∨ ((b.toNat : Rat) - 128) / 2 ≤ 2 * (i : Rat) - 16)))

/-- The byte of a temperature in degrees. -/
def celsiusByte (c : Fl) : UInt8 := asU8 (Fl.add f32 (Fl.round (Fl.mul f32 c (.fin 2))) (.fin 128))

theorem celsiusByte_mono {a b : Fl} (h : Fl.le a b = true) : celsiusByte a ≤ celsiusByte b :=
  asU8_mono (Fl.le_add_right prec32 (Fl.round_mono (Fl.le_mul_right prec32 (by norm_num) h)))

theorem celsius_bounds : ∀ j : Nat, j < 28 → tempLegend.bounds[j]? = some (.fin (2 * (j : Rat) - 16)) ∧
    (celsiusByte (.fin (2 * (j : Rat) - 16))).toNat = 4 * j + 96 := by decide +kernel

theorem temp_agrees (v : Option Fl) : TempAgrees ((v.map tempColor).getD Color.transparent) (tempByte v) := by
  cases v with
  | none => exact .inl ⟨rfl, rfl⟩
  | some k =>
    refine .inr ?_
    have hb : tempByte (some k) = celsiusByte (kelvinToCelsius k) := rfl
    simp only [Option.map_some, Option.getD_some]
    rw [hb, tempColor_eq]
    generalize kelvinToCelsius k = c
    by_cases hc : c = .nan
    · subst hc
      exact ⟨28, temp_shows.2, .inl ⟨rfl, by decide +kernel⟩⟩
    · obtain ⟨i, ⟨i1, i2, i3⟩, -, hi⟩ := temp_shows.1 c hc
      refine ⟨i, hi, .inr ⟨?_, ?_⟩⟩
      · rcases Nat.eq_zero_or_pos i with h0 | h0
        · exact .inl h0
        · have h28 : i ≤ 28 := i1
          obtain ⟨b1, b2⟩ := celsius_bounds (i - 1) (by omega)
          have h := celsiusByte_mono (i2 (i - 1) _ (by omega) b1)
          rw [UInt8.le_iff_toNat_le, b2] at h
          refine .inr ?_
          have h : ((4 * (i - 1) + 96 : Nat) : Rat) ≤ ((celsiusByte c).toNat : Rat) := by exact_mod_cast h
          push_cast [h0] at h
          linarith
      · by_cases h28 : i = 28
        · exact .inl h28
        · have h28 : i < 28 := lt_of_le_of_ne i1 h28
          obtain ⟨b1, b2⟩ := celsius_bounds i h28
          have h := celsiusByte_mono (Fl.le_of_lt (i3 i _ (Nat.le_refl _) b1))
          rw [UInt8.le_iff_toNat_le, b2] at h
          refine .inr ?_
          have h : ((celsiusByte c).toNat : Rat) ≤ ((4 * i + 96 : Nat) : Rat) := by exact_mod_cast h
          push_cast at h
          linarith

/-! ## Wind -/

/-- A colour of the wind chart and the bytes of the components in the wind file do not contradict each other: the
speed computed from the bytes, which are whole knots, is within the class of the colour up to 0.75 knots, unless a component
is beyond what a byte can hold. -/
def WindAgrees (col : Color) (bu bv : UInt8) : Prop :=
  (col = Color.transparent ∧ bu = 255 ∧ bv = 255) ∨ (bu ≠ 255 ∧ bv ≠ 255 ∧ ∃ i : Nat, windColors[i]? = some col ∧
    (1 ≤ bu.toNat → bu.toNat ≤ 253 → 1 ≤ bv.toNat → bv.toNat ≤ 253 →
      (∀ (j : Nat) (L : Rat), j < i → windKnots[j]? = some L → (L - 3 / 4) ^ 2 ≤ ((bu.toNat : Rat) - 128) ^ 2 + ((bv.toNat : Rat) - 128) ^ 2) ∧
      ∀ (j : Nat) (H : Rat), i ≤ j → windKnots[j]? = some H → ((bu.toNat : Rat) - 128) ^ 2 + ((bv.toNat : Rat) - 128) ^ 2 < (H + 3 / 4) ^ 2))

/-- A byte that is not at an end of the scale. -/
theorem speedByte_inner {x : Fl} (h1 : 1 ≤ (speedByte x).toNat) (h2 : (speedByte x).toNat ≤ 253) :
    ∃ q : Rat, x = .fin q ∧ |q| ≤ 1000 ∧ |q * (194384 / 100000) - (((speedByte x).toNat : Rat) - 128)| ≤ 51 / 100 := by
  cases x with
  | nan => exact absurd h2 (by decide +kernel)
  | ninf => exact absurd h1 (by decide +kernel)
  | pinf => exact absurd h2 (by decide +kernel)
  | fin q =>
    have lo : (speedByte (.fin (-1000))).toNat = 0 := by decide +kernel
    have hi : (speedByte (.fin 1000)).toNat = 254 := by decide +kernel
    have hq : |q| ≤ 1000 := by
      rw [abs_le]
      constructor
      · by_contra hlt
        have := speedByte_mono (show Fl.le (.fin q) (.fin (-1000)) = true by rw [Fl.le_fin]; linarith)
        rw [UInt8.le_iff_toNat_le] at this
        omega
      · by_contra hlt
        have := speedByte_mono (show Fl.le (.fin 1000) (.fin q) = true by rw [Fl.le_fin]; linarith)
        rw [UInt8.le_iff_toNat_le] at this
        omega
    refine ⟨q, rfl, hq, ?_⟩
    have ha := speedByte_acc hq
    have g1 : (1 : Rat) ≤ ((speedByte (.fin q)).toNat : Rat) := by exact_mod_cast h1
    have g2 : ((speedByte (.fin q)).toNat : Rat) ≤ 253 := by exact_mod_cast h2
    generalize ((speedByte (.fin q)).toNat : Rat) = b at *
    rw [abs_le] at ha ⊢
    obtain ⟨a1, a2⟩ := ha
    rcases le_total 254 (q * (194384 / 100000) + 128) with c | c
    · rw [min_eq_left c, max_eq_right (by norm_num)] at a1 a2
      linarith
    · rw [min_eq_right c] at a1 a2
      rcases le_total 0 (q * (194384 / 100000) + 128) with c' | c'
      · rw [max_eq_right c'] at a1 a2
        constructor <;> linarith
      · rw [max_eq_left c'] at a1 a2
        linarith

theorem speed_near {a b x y : Real} (h1 : |a - x| ≤ 51 / 100) (h2 : |b - y| ≤ 51 / 100) :
    Real.sqrt (a ^ 2 + b ^ 2) ≤ Real.sqrt (x ^ 2 + y ^ 2) + 73 / 100 := by
  set S := Real.sqrt (x ^ 2 + y ^ 2) with hS
  have hS0 : 0 ≤ S := Real.sqrt_nonneg _
  have hS2 : S ^ 2 = x ^ 2 + y ^ 2 := Real.sq_sqrt (by positivity)
  have hxy : |x| + |y| ≤ 1415 / 1000 * S := by
    refine abs_le_of_sq_le_sq' ?_ (by positivity) |>.2
    have := sq_nonneg (|x| - |y|)
    have e1 := sq_abs x
    have e2 := sq_abs y
    nlinarith
  have ha : |a| ≤ |x| + 51 / 100 := by
    have := abs_add_le (a - x) x
    rw [sub_add_cancel] at this
    linarith
  have hb : |b| ≤ |y| + 51 / 100 := by
    have := abs_add_le (b - y) y
    rw [sub_add_cancel] at this
    linarith
  rw [Real.sqrt_le_left (by positivity)]
  have a2 : a ^ 2 ≤ (|x| + 51 / 100) ^ 2 := by
    rw [← sq_abs a]
    exact pow_le_pow_left₀ (abs_nonneg a) ha 2
  have b2 : b ^ 2 ≤ (|y| + 51 / 100) ^ 2 := by
    rw [← sq_abs b]
    exact pow_le_pow_left₀ (abs_nonneg b) hb 2
  have e1 := sq_abs x
  have e2 := sq_abs y
  nlinarith

theorem kt_near : ∀ (j : Nat) (n : Rat), windKnots[j]? = some n → 5 ≤ n ∧ n ≤ 50 ∧ ∃ b : Rat, kt n = .fin b ∧
    windLegend.bounds[j]? = some (.fin b) ∧ |b - n * (514444 / 1000000)| ≤ 1 / 10 ^ 5 := by
  intro j n hj
  have hm := List.mem_of_getElem? hj
  have hn : 5 ≤ n ∧ n ≤ 50 := by
    have : ∀ n ∈ windKnots, 5 ≤ n ∧ n ≤ 50 := by decide +kernel
    exact this n hm
  obtain ⟨b, hb, he⟩ := C46_wind.2 n hm
  refine ⟨hn.1, hn.2, b, hb, ?_, he.trans ?_⟩
  · show (windKnots.map kt)[j]? = _
    rw [List.getElem?_map, hj, Option.map_some, hb]
  · obtain ⟨_, h⟩ := hn
    norm_num
    linarith

theorem wind_agrees (w : Option (Fl × Fl)) :
    WindAgrees ((w.map fun q => windColor (windSpeed q.1 q.2)).getD Color.transparent)
      ((w.map fun q => speedByte q.1).getD none8) ((w.map fun q => speedByte q.2).getD none8) := by
  cases w with
  | none => exact .inl ⟨rfl, rfl, rfl⟩
  | some q =>
    obtain ⟨x, y⟩ := q
    refine .inr ⟨ne255_of_le (clamp254_le _), ne255_of_le (clamp254_le _), ?_⟩
    simp only [Option.map_some, Option.getD_some]
    by_cases hb : (1 ≤ (speedByte x).toNat ∧ (speedByte x).toNat ≤ 253) ∧ 1 ≤ (speedByte y).toNat ∧ (speedByte y).toNat ≤ 253
    · obtain ⟨⟨x1, x2⟩, y1, y2⟩ := hb
      have X2 : ((speedByte x).toNat : Real) ≤ 253 := by exact_mod_cast x2
      have Y2 : ((speedByte y).toNat : Real) ≤ 253 := by exact_mod_cast y2
      have X1 : (1 : Real) ≤ ((speedByte x).toNat : Real) := by exact_mod_cast x1
      have Y1 : (1 : Real) ≤ ((speedByte y).toNat : Real) := by exact_mod_cast y1
      obtain ⟨e, rfl, e1, e2⟩ := speedByte_inner x1 x2
      obtain ⟨n, rfl, n1, n2⟩ := speedByte_inner y1 y2
      obtain ⟨v, hv, v0, v1, -⟩ := C44_speed (e := e) (n := n) (e1.trans (by norm_num)) (n1.trans (by norm_num))
      rw [hv]
      obtain ⟨i, ⟨-, i2, i3⟩, -, hi⟩ := C46_wind.1.1 (.fin v) (by simp)
      refine ⟨i, hi, fun _ _ _ _ => ?_⟩
      generalize ((speedByte (.fin e)).toNat) = bu at *
      generalize ((speedByte (.fin n)).toNat) = bv at *
      -- in real numbers
      have E : |(e : Real) * (194384 / 100000) - ((bu : Real) - 128)| ≤ 51 / 100 := by
        have := (Rat.cast_le (K := Real)).mpr e2
        push_cast at this
        exact this
      have N : |(n : Real) * (194384 / 100000) - ((bv : Real) - 128)| ≤ 51 / 100 := by
        have := (Rat.cast_le (K := Real)).mpr n2
        push_cast at this
        exact this
      have lo := speed_near E N
      rw [abs_sub_comm] at E N
      have hi := speed_near E N
      have scale : Real.sqrt (((e : Real) * (194384 / 100000)) ^ 2 + ((n : Real) * (194384 / 100000)) ^ 2) =
          194384 / 100000 * Real.sqrt ((e : Real) ^ 2 + (n : Real) ^ 2) := by
        rw [show ((e : Real) * (194384 / 100000)) ^ 2 + ((n : Real) * (194384 / 100000)) ^ 2 =
          (194384 / 100000) ^ 2 * ((e : Real) ^ 2 + (n : Real) ^ 2) by ring, Real.sqrt_mul (by positivity),
          Real.sqrt_sq (by norm_num)]
      rw [scale] at lo hi
      set r := Real.sqrt ((e : Real) ^ 2 + (n : Real) ^ 2)
      set D := Real.sqrt (((bu : Real) - 128) ^ 2 + ((bv : Real) - 128) ^ 2) with hD
      have hD2 : D ^ 2 = ((bu : Real) - 128) ^ 2 + ((bv : Real) - 128) ^ 2 := Real.sq_sqrt (by positivity)
      have hD0 : 0 ≤ D := Real.sqrt_nonneg _
      have hD200 : D ≤ 200 := by
        refine abs_le_of_sq_le_sq' ?_ (by norm_num) |>.2
        nlinarith
      have r0 : 0 ≤ r := Real.sqrt_nonneg _
      have hr : r ≤ 104 := by linarith
      rw [abs_le] at v1
      obtain ⟨w1, w2⟩ := v1
      norm_num at w1 w2
      constructor
      · intro j L hj hL
        obtain ⟨l5, l50, b, hb, hb', hbe⟩ := kt_near j L hL
        have hle := i2 j _ hj hb'
        rw [Fl.le_fin] at hle
        have hle : (b : Real) ≤ v := by exact_mod_cast hle
        have hbe : |(b : Real) - L * (514444 / 1000000)| ≤ 1 / 10 ^ 5 := by
          have := (Rat.cast_le (K := Real)).mpr hbe
          push_cast at this
          exact this
        have l5' : (5 : Real) ≤ L := by exact_mod_cast l5
        have l50' : (L : Real) ≤ 50 := by exact_mod_cast l50
        rw [abs_le] at hbe
        have key : (L : Real) - 3 / 4 ≤ D := by linarith [hbe.1]
        have : ((L : Real) - 3 / 4) ^ 2 ≤ ((bu : Real) - 128) ^ 2 + ((bv : Real) - 128) ^ 2 := by
          rw [← hD2]
          exact pow_le_pow_left₀ (by linarith) key 2
        rw [← Rat.cast_le (K := Real)]
        push_cast
        exact this
      · intro j H hj hH
        obtain ⟨l5, l50, b, hb, hb', hbe⟩ := kt_near j H hH
        have hlt := i3 j _ hj hb'
        rw [Fl.lt_fin] at hlt
        have hlt : (v : Real) < b := by exact_mod_cast hlt
        have hbe : |(b : Real) - H * (514444 / 1000000)| ≤ 1 / 10 ^ 5 := by
          have := (Rat.cast_le (K := Real)).mpr hbe
          push_cast at this
          exact this
        have l5' : (5 : Real) ≤ H := by exact_mod_cast l5
        have l50' : (H : Real) ≤ 50 := by exact_mod_cast l50
        rw [abs_le] at hbe
        have key : D < (H : Real) + 3 / 4 := by linarith [hbe.2]
        have : ((bu : Real) - 128) ^ 2 + ((bv : Real) - 128) ^ 2 < ((H : Real) + 3 / 4) ^ 2 := by
          rw [← hD2]
          exact pow_lt_pow_left₀ key hD0 (by norm_num)
        rw [← Rat.cast_lt (K := Real)]
        push_cast
        exact this
    · have : ∃ i : Nat, windColors[i]? = some (windColor (windSpeed x y)) := by
        by_cases hv : windSpeed x y = .nan
        · rw [hv]
          exact ⟨_, C46_wind.1.2⟩
        · obtain ⟨i, -, -, h⟩ := C46_wind.1.1 _ hv
          exact ⟨i, h⟩
      obtain ⟨i, hi⟩ := this
      exact ⟨i, hi, fun a b c d => absurd ⟨⟨a, b⟩, c, d⟩ hb⟩

/-! ## Layers -/

theorem temp_layer (m : Libm) {l : TempLayer} {bytes : List UInt8} (hb : tempBin l = .ok bytes) {w h : Nat}
    (hd : l.temp.dims = (w, h)) : bytes.length = w * h ∧ ∀ t d, t.zoom ≤ 31 →
      createSingleTile m (tempChart l).color t id = .ok d → ∀ i j, i < 256 → j < 256 →
      match nearest l.temp.grid w h (pixelPosition m t i j) with
      | none => d.pixel j i = some Color.transparent
      | some k => ∃ col b, d.pixel j i = some col ∧ bytes[k]? = some b ∧ TempAgrees col b := by
  unfold tempBin at hb
  rw [hd] at hb
  have hok := forCells_ok hb
  obtain ⟨V, hV⟩ := lookup_total hd fun x y hx hy => by
    obtain ⟨b, h⟩ := hok x y hx hy
    obtain ⟨v, hv, -⟩ := bind_ok' h
    exact ⟨v, hv⟩
  obtain ⟨bytes', e, len, lay⟩ := forCells_layout (w := w) (h := h) (k := 1)
    (f := fun x y => (l.getTempByXY x y).bind fun t => .ok [tempByte t])
    (fun x y => [tempByte ((pointNr w h x y).bind V)]) (fun x y _ _ => by
      show (l.temp.getValueByXY x y).bind _ = _
      rw [hV]; rfl) (fun _ _ _ _ => rfl)
  rw [hb] at e
  cases e
  refine ⟨by simpa using len, fun t d hz hd' i j hi hj => ?_⟩
  have hc : ∀ p, (tempChart l).color p = .ok (((nearest l.temp.grid w h p).bind V).map tempColor) := by
    intro p
    unfold tempChart TempLayer.getTempByLatLon
    simp only
    rw [lookup_position hV]
    generalize (nearest l.temp.grid w h p).bind V = o
    cases o <;> rfl
  have hp := pixel_color m hz hc hd' hi hj
  cases hk : nearest l.temp.grid w h (pixelPosition m t i j) with
  | none => rw [hk] at hp; exact hp
  | some k =>
    rw [hk] at hp
    simp only [Option.bind_some] at hp
    refine ⟨_, tempByte (V k), hp, ?_, temp_agrees (V k)⟩
    have hlt := nearest_lt hk
    have hw : 0 < w := by rcases Nat.eq_zero_or_pos w with rfl | h <;> simp_all
    have hx : k % w < w := Nat.mod_lt _ hw
    have hy : k / w < h := Nat.div_lt_of_lt_mul hlt
    have := lay (k % w) (k / w) 0 hx hy (by norm_num)
    have hkk : k / w * w + k % w = k := by rw [Nat.mul_comm]; exact Nat.div_add_mod k w
    rw [hkk, Nat.mul_one, Nat.add_zero] at this
    rw [this]
    unfold pointNr
    rw [if_pos ⟨hx, hy⟩, hkk]
    rfl

theorem wind_layer (m : Libm) {l : WindLayer} {bytes : List UInt8} (hb : windBin l = .ok bytes)
    (hg : l.meridional.grid = l.zonal.grid) {w h : Nat} (hd : l.zonal.dims = (w, h)) :
    bytes.length = w * h * 3 ∧ ∀ t d, t.zoom ≤ 31 →
      createSingleTile m (windChart l).color t id = .ok d → ∀ i j, i < 256 → j < 256 →
      match nearest l.zonal.grid w h (pixelPosition m t i j) with
      | none => d.pixel j i = some Color.transparent
      | some k => ∃ col bu bv, d.pixel j i = some col ∧ bytes[k * 3]? = some bu ∧ bytes[k * 3 + 1]? = some bv ∧
          WindAgrees col bu bv := by
  have hd2 : l.meridional.dims = (w, h) := by
    show l.meridional.grid.dimensions = _
    rw [hg]
    exact hd
  unfold windBin at hb
  rw [show l.dims = (w, h) from hd] at hb
  have hok := forCells_ok hb
  have hwind : ∀ x y, x < w → y < h → ∃ a b g, l.zonal.getValueByXY x y = .ok a ∧ l.meridional.getValueByXY x y = .ok b ∧
      l.getGustsByXY x y = .ok g := by
    intro x y hx hy
    obtain ⟨b, h⟩ := hok x y hx hy
    obtain ⟨v, hv, h⟩ := bind_ok' h
    obtain ⟨g, hg, h⟩ := bind_ok' h
    unfold WindLayer.getWindByXY at hv
    obtain ⟨a, ha, hv⟩ := bind_ok' hv
    obtain ⟨b, hb, hv⟩ := bind_ok' hv
    exact ⟨a, b, g, ha, hb, hg⟩
  obtain ⟨U, hU⟩ := lookup_total hd fun x y hx hy => by
    obtain ⟨a, b, g, h, -, -⟩ := hwind x y hx hy
    exact ⟨a, h⟩
  obtain ⟨V, hV⟩ := lookup_total hd2 fun x y hx hy => by
    obtain ⟨a, b, g, -, h, -⟩ := hwind x y hx hy
    exact ⟨b, h⟩
  have hG : ∃ g : Nat → Nat → Option Fl, ∀ x y, x < w → y < h → l.getGustsByXY x y = .ok (g x y) := by
    classical
    have : ∀ x y, ∃ g, x < w → y < h → l.getGustsByXY x y = .ok g := by
      intro x y
      by_cases hx : x < w ∧ y < h
      · obtain ⟨_, _, g, -, -, h⟩ := hwind x y hx.1 hx.2
        exact ⟨g, fun _ _ => h⟩
      · exact ⟨none, fun a b => absurd ⟨a, b⟩ hx⟩
    choose g hg using this
    exact ⟨g, hg⟩
  obtain ⟨g, hG⟩ := hG
  obtain ⟨bytes', e, len, lay⟩ := forCells_layout (w := w) (h := h) (k := 3)
    (f := fun x y => (l.getWindByXY x y).bind fun w => (l.getGustsByXY x y).bind fun g => .ok (windBytes w g))
    (fun x y => windBytes (bothOf ((pointNr w h x y).bind U) ((pointNr w h x y).bind V)) (g x y)) (fun x y hx hy => by
      show (l.getWindByXY x y).bind _ = _
      rw [hG x y hx hy]
      unfold WindLayer.getWindByXY
      rw [hU, hV]
      rfl) (fun x y _ _ => by
      generalize bothOf _ _ = o
      cases o <;> rfl)
  rw [hb] at e
  cases e
  refine ⟨len, fun t d hz hd' i j hi hj => ?_⟩
  have hc : ∀ p, (windChart l).color p = .ok ((bothOf ((nearest l.zonal.grid w h p).bind U)
      ((nearest l.zonal.grid w h p).bind V)).map fun q => windColor (windSpeed q.1 q.2)) := by
    intro p
    unfold windChart WindLayer.getSpeedByLatLon WindLayer.getWindByLatLon
    simp only
    rw [lookup_position hU, lookup_position hV, hg]
    generalize (nearest l.zonal.grid w h p).bind U = o
    generalize (nearest l.zonal.grid w h p).bind V = o'
    cases o <;> cases o' <;> rfl
  have hp := pixel_color m hz hc hd' hi hj
  cases hk : nearest l.zonal.grid w h (pixelPosition m t i j) with
  | none => rw [hk] at hp; exact hp
  | some k =>
    rw [hk] at hp
    simp only [Option.bind_some] at hp
    have hlt := nearest_lt hk
    have hw : 0 < w := by rcases Nat.eq_zero_or_pos w with rfl | h <;> simp_all
    have hx : k % w < w := Nat.mod_lt _ hw
    have hy : k / w < h := Nat.div_lt_of_lt_mul hlt
    have hkk : k / w * w + k % w = k := by rw [Nat.mul_comm]; exact Nat.div_add_mod k w
    have l0 := lay (k % w) (k / w) 0 hx hy (by norm_num)
    have l1 := lay (k % w) (k / w) 1 hx hy (by norm_num)
    rw [hkk] at l0 l1
    unfold pointNr at l0 l1
    rw [if_pos ⟨hx, hy⟩, hkk] at l0 l1
    simp only [Option.bind_some] at l0 l1
    refine ⟨_, _, _, hp, ?_, ?_, wind_agrees (bothOf (U k) (V k))⟩
    · rw [← Nat.add_zero (k * 3), l0]
      generalize bothOf _ _ = o
      cases o <;> rfl
    · rw [l1]
      generalize bothOf _ _ = o
      cases o <;> rfl

/-! ## Calls -/

theorem net_oneGrid {w : World} {net : Net} :
    (∀ run s l, net.dwdWind w run s (.ok l) → OneGrid l) ∧ (∀ run s l, net.dwdTemp w run s (.ok l) → OneGrid l) ∧
    (∀ g a b c s l, net.swissWind w g a b c s (.ok l) → OneGrid l) ∧
    (∀ g a s l, net.swissTemp w g a s (.ok l) → OneGrid l) := by
  refine ⟨fun run s l h => ?_, fun run s l h => ?_, fun g a b c s l h => ?_, fun g a s l h => ?_⟩
  · obtain ⟨u, hu, h⟩ := may_bind h
    obtain ⟨v, hv, h⟩ := may_bind h
    obtain ⟨_, _, h⟩ := may_bind h
    obtain ⟨x, hx, h⟩ := may_bind h
    obtain rfl := may_pure h
    exact oneGrid_wind (regular_dwd hu) (regular_dwd hv) (may_of hx)
  · obtain ⟨u, hu, h⟩ := may_bind h
    obtain rfl := may_pure h
    exact regular_dwd hu
  · obtain ⟨_, _, h⟩ := may_bind h
    obtain ⟨_, _, h⟩ := may_bind h
    obtain ⟨_, _, h⟩ := may_bind h
    obtain ⟨u, hu, h⟩ := may_bind h
    obtain ⟨v, hv, h⟩ := may_bind h
    obtain ⟨_, _, h⟩ := may_bind h
    obtain ⟨x, hx, h⟩ := may_bind h
    obtain rfl := may_pure h
    exact oneGrid_wind (regular_swiss hu) (regular_swiss hv) (may_of hx)
  · obtain ⟨_, _, h⟩ := may_bind h
    obtain ⟨u, hu, h⟩ := may_bind h
    obtain rfl := may_pure h
    exact regular_swiss hu

theorem oneGrid_other {l : Layers} {v : LayerType} (h : variableOf l = v) (hv : v ≠ .wind10m) (hv' : v ≠ .temp2m) :
    OneGrid l := by
  cases l with
  | wind l => exact absurd h.symm hv
  | temp l => exact absurd h.symm hv'
  | _ => trivial

theorem source_dwd_net (net : Net) (m : Libm) (w : World) (dirs : Text → Bool) (vars : List Text) (filter : List Nat)
    {run : Run} (hn : '/' ∉ run.name) :
    Sourced m run OneGrid (Dwd.renderRunNet net m w dirs vars filter run) fun p => ∃ v, RunFile run v p := by
  have hs := dwd_steps_nodup run.model
  obtain ⟨k1, k2, k3, k4, k5, -⟩ := net_variable (w := w) (net := net)
  obtain ⟨g1, g2, -⟩ := net_oneGrid (w := w) (net := net)
  refine source_parts hn ?_ ?_ ?_ (.needs fun hhl _ => source_pair hn ?_ ?_)
  · exact .need fun totPrec _ => source_steps_net hn dirs hs filter fun s l h =>
      ⟨k1 _ _ _ s l h, oneGrid_other (k1 _ _ _ s l h) (by decide) (by decide)⟩
  · exact source_steps_net hn dirs hs filter fun s l h => ⟨k2 _ s l h, g1 _ s l h⟩
  · exact source_steps_net hn dirs hs filter fun s l h => ⟨k3 _ s l h, g2 _ s l h⟩
  · exact source_steps_net hn dirs hs filter fun s l h =>
      ⟨k4 _ _ _ s l h, oneGrid_other (k4 _ _ _ s l h) (by decide) (by decide)⟩
  · exact source_steps_net hn dirs hs filter fun s l h =>
      ⟨k5 _ _ _ s l h, oneGrid_other (k5 _ _ _ s l h) (by decide) (by decide)⟩

theorem source_swiss_net (net : Net) (m : Libm) (w : World) (s : Swiss.Service) (cal : Swiss.Calendar) (dirs : Text → Bool)
    (vars : List Text) (filter : List Nat) (grid : UnstructuredGrid) (vertUrl : Text) (t : Instant) :
    ∃ run : Run, '/' ∉ run.name ∧ Sourced m run OneGrid
      (Swiss.renderRunNet net m w s cal dirs vars filter grid vertUrl t) fun p => ∃ v, RunFile run v p := by
  obtain ⟨-, -, -, -, -, k1, k2, k3, k4, k5⟩ := net_variable (w := w) (net := net)
  obtain ⟨-, -, g1, g2⟩ := net_oneGrid (w := w) (net := net)
  by_cases hr : ∃ run, Swiss.forecastRun cal t = .ok run
  · obtain ⟨run, hr⟩ := hr
    have hn := forecastRun_no_slash hr
    have same : ∀ run', Swiss.forecastRun cal t = .ok run' → run' = run := fun run' h => Res.ok.inj (h.symm.trans hr)
    refine ⟨run, hn, source_parts hn ?_ ?_ ?_ (.needs fun hhl _ => source_pair hn ?_ ?_)⟩
    · refine .need fun run' h' => .need fun clct hs => .need fun _ _ => .need fun _ _ => ?_
      obtain rfl := same run' h'
      exact source_steps_net hn dirs (swiss_steps_nodup hs) filter fun s l h =>
        ⟨k1 _ _ _ _ s l h, oneGrid_other (k1 _ _ _ _ s l h) (by decide) (by decide)⟩
    · refine .need fun run' h' => .need fun clct hs => .need fun _ _ => .need fun _ _ => ?_
      obtain rfl := same run' h'
      exact source_steps_net hn dirs (swiss_steps_nodup hs) filter fun s l h => ⟨k2 _ _ _ _ s l h, g1 _ _ _ _ s l h⟩
    · refine .need fun run' h' => .need fun clct hs => ?_
      obtain rfl := same run' h'
      exact source_steps_net hn dirs (swiss_steps_nodup hs) filter fun s l h => ⟨k3 _ _ s l h, g2 _ _ s l h⟩
    · refine .need fun run' h' => .need fun clct hs => ?_
      obtain rfl := same run' h'
      exact source_steps_net hn dirs (swiss_steps_nodup hs) filter fun s l h =>
        ⟨k4 _ _ _ s l h, oneGrid_other (k4 _ _ _ s l h) (by decide) (by decide)⟩
    · refine .need fun run' h' => .need fun clct hs => .need fun _ _ => ?_
      obtain rfl := same run' h'
      exact source_steps_net hn dirs (swiss_steps_nodup hs) filter fun s l h =>
        ⟨k5 _ _ _ _ s l h, oneGrid_other (k5 _ _ _ _ s l h) (by decide) (by decide)⟩
  · have part : ∀ {S : Text → Prop} {f : Run → Effect},
        Sourced m rainRun OneGrid (Effect.need (Swiss.forecastRun cal t) f) S :=
      .need fun run h => absurd ⟨run, h⟩ hr
    refine ⟨rainRun, by decide, Sourced.mono (S := fun p => False ∨ False ∨ False ∨ (False ∨ False ∨ False) ∨ False)
      (.seq_cons (.when part) (.seq_cons (.when part) (.seq_cons (.when part)
        (.seq_cons (.when (.needs fun hhl _ => .seq_cons (.when part) (.seq_cons (.when part) .seq_nil ?_) ?_))
        .seq_nil ?_) ?_) ?_) ?_) (fun p h => by simp at h)⟩
    all_goals
      intro v step p q _ _ h h'
      simp at h h'

/-- The files belong to one run, and those of a variable at a step are made from the same layers. -/
def Shared (m : Libm) (tr : List Write) (run : Run) : Prop := '/' ∉ run.name ∧
  (∀ x ∈ tr, ∃ v, RunFile run v x.path) ∧ ∀ v step, (∃ x ∈ tr, StepFile run v step x.path) → ∃ l, OneGrid l ∧
  ∀ x ∈ tr, ∀ out : Output, out.variable = v → x.path = out.path run step →
    FileOf m run.model.zoomRange l out x.content

theorem source_net (net : Net) (e : Environment) (model : Text) (vars : List Text) (filter : List Nat) (tr : List Write)
    (o : Outcome) (h : mainNet net e model vars filter tr o) : ∃ run, Shared e.libm tr run := by
  have none : tr = [] → ∃ run, Shared e.libm tr run := by
    rintro rfl
    exact ⟨rainRun, by decide, fun x hx => (by cases hx), fun v step ⟨x, hx, _⟩ => (by cases hx)⟩
  have need : ∀ {α : Type} {r : Res α} {f : α → Effect}, Effect.need r f tr o → tr = [] ∨ ∃ a, r = .ok a ∧ f a tr o := by
    intro α r f h
    cases r with
    | ok a => exact .inr ⟨a, rfl, h⟩
    | err => exact .inl h.1
    | panic => exact .inl h.1
  have needs : ∀ {α : Type} {r : May α} {f : α → Effect}, Effect.needs r f tr o → tr = [] ∨ ∃ a, r (.ok a) ∧ f a tr o := by
    rintro α r f (⟨_, h⟩ | ⟨_, h⟩ | h)
    · exact .inl h.1
    · exact .inl h.1
    · exact .inr h
  have key : ∀ {dwd : FcModel}, IsDwd dwd → Effect.need (Dwd.findLatestRun dwd e.today e.now e.available)
      (Dwd.renderRunNet net e.libm e.world e.dirs vars filter) tr o → ∃ run, Shared e.libm tr run := fun hd h => by
    rcases need h with h | ⟨run, hr, h⟩
    · exact none h
    · have hn := findLatestRun_no_slash hd hr
      exact ⟨run, hn, source_dwd_net net e.libm e.world e.dirs vars filter hn tr o h⟩
  unfold mainNet at h
  split at h
  · rcases need h with h | ⟨_, _, h⟩
    · exact none h
    rcases need h with h | ⟨_, _, h⟩
    · exact none h
    rcases needs h with h | ⟨_, _, h⟩
    · exact none h
    rcases need h with h | ⟨_, _, h⟩
    · exact none h
    rcases need h with h | ⟨_, _, h⟩
    · exact none h
    rcases need h with h | ⟨_, _, h⟩
    · exact none h
    obtain ⟨run, hn, hs⟩ := source_swiss_net net e.libm e.world e.service e.calendar e.dirs vars filter _ _ _
    exact ⟨run, hn, hs tr o h⟩
  · split at h
    · exact key (.inl rfl) h
    · split at h
      · exact key (.inr rfl) h
      · exact none h.1

/-- Runs with the same file have the same directories. -/
theorem same_place {run run' : Run} (hn : '/' ∉ run.name) (hn' : '/' ∉ run'.name) {step step' : Nat} {o o' : Output}
    (h : o.path run step = o'.path run' step') : step = step' ∧ o = o' ∧ ∀ l, outputPath run step l = outputPath run' step l := by
  have h0 := h
  rw [Output.path_eq, Output.path_eq] at h
  have h1 := List.append_cancel_left h
  obtain ⟨em, h2⟩ := split_sep (model_no_slash _) (model_no_slash _) h1
  have hdn : ∀ r : Run, '/' ∉ r.name → '/' ∉ r.date.fmt ++ r.name := by
    intro r hr; rw [List.mem_append, not_or]; exact ⟨fmt_no_slash _, hr⟩
  obtain ⟨ed, h3⟩ := split_sep (hdn run hn) (hdn run' hn') h2
  have hp : ∀ (s : Nat) (x : LayerType), outputPath run s x = outputPath run' s x := by
    intro s x
    unfold outputPath
    rw [em, List.append_assoc _ run.date.fmt, ed]
    simp only [List.append_assoc]
  have he : Output.path run step o = Output.path run' step o := by
    cases o <;> simp only [Output.path, binPath, hp]
  rw [he] at h0
  obtain ⟨e1, e2⟩ := C54_same_run run' hn' h0
  exact ⟨e1, e2, hp step⟩

/-- The temperature charts of a step agree with a temperature file: there is a grid such that each pixel within the grid
agrees with the byte of the cell next to it. -/
def TempsAgree (m : Libm) (tr : List Write) (run : Run) (step : Nat) (bytes : List UInt8) : Prop :=
  ∃ (w h : Nat) (ext : LatLonExtent), bytes.length = w * h ∧
    ∀ t d, (⟨tilePath (outputPath run step .temp2m) t, .picture d⟩ : Write) ∈ tr → ∀ i j, i < 256 → j < 256 →
      match nearest (LatLonGrid.new (w, h) ext) w h (pixelPosition m t i j) with
      | none => d.pixel j i = some Color.transparent
      | some k => ∃ col b, d.pixel j i = some col ∧ bytes[k]? = some b ∧ TempAgrees col b

/-- The same for wind. -/
def WindsAgree (m : Libm) (tr : List Write) (run : Run) (step : Nat) (bytes : List UInt8) : Prop :=
  ∃ (w h : Nat) (ext : LatLonExtent), bytes.length = w * h * 3 ∧
    ∀ t d, (⟨tilePath (outputPath run step .wind10m) t, .picture d⟩ : Write) ∈ tr → ∀ i j, i < 256 → j < 256 →
      match nearest (LatLonGrid.new (w, h) ext) w h (pixelPosition m t i j) with
      | none => d.pixel j i = some Color.transparent
      | some k => ∃ col bu bv, d.pixel j i = some col ∧ bytes[k * 3]? = some bu ∧ bytes[k * 3 + 1]? = some bv ∧
          WindAgrees col bu bv

theorem Shared.temp {m : Libm} {tr : List Write} {run : Run} (h : Shared m tr run) {step : Nat} {bytes : List UInt8}
    (hb : (⟨binPath run step .temp2m, .bytes bytes⟩ : Write) ∈ tr) : TempsAgree m tr run step bytes := by
  obtain ⟨l, hg, hl⟩ := h.2.2 .temp2m step ⟨_, hb, .bin .temp2m, rfl, rfl⟩
  have hf := hl _ hb (.bin .temp2m) rfl rfl
  generalize hc : Content.bytes bytes = c at hf
  cases hf with
  | temp hbin =>
    cases hc
    rename_i l
    obtain ⟨ext, hext⟩ : Regular l.temp := hg
    obtain ⟨h1, h2⟩ := temp_layer m hbin (w := l.temp.dims.1) (h := l.temp.dims.2) rfl
    refine ⟨_, _, ext, h1, fun t d hd i j hi hj => ?_⟩
    have ht := hl _ hd (.tempTile t) rfl rfl
    generalize hc : Content.picture d = c at ht
    cases ht with
    | tempTile hn hd' =>
      cases hc
      have := h2 t d (zoom31 run.model hn.2.1) hd' i j hi hj
      rw [hext] at this
      exact this

theorem Shared.wind {m : Libm} {tr : List Write} {run : Run} (h : Shared m tr run) {step : Nat} {bytes : List UInt8}
    (hb : (⟨binPath run step .wind10m, .bytes bytes⟩ : Write) ∈ tr) : WindsAgree m tr run step bytes := by
  obtain ⟨l, hg, hl⟩ := h.2.2 .wind10m step ⟨_, hb, .bin .wind10m, rfl, rfl⟩
  have hf := hl _ hb (.bin .wind10m) rfl rfl
  generalize hc : Content.bytes bytes = c at hf
  cases hf with
  | wind hbin =>
    cases hc
    rename_i l
    obtain ⟨⟨ext, hext⟩, hg⟩ : Regular l.zonal ∧ l.meridional.grid = l.zonal.grid := hg
    obtain ⟨h1, h2⟩ := wind_layer m hbin hg (w := l.zonal.dims.1) (h := l.zonal.dims.2) rfl
    refine ⟨_, _, ext, h1, fun t d hd i j hi hj => ?_⟩
    have ht := hl _ hd (.windTile t) rfl rfl
    generalize hc : Content.picture d = c at ht
    cases ht with
    | windTile hn hd' =>
      cases hc
      have := h2 t d (zoom31 run.model hn.2.1) hd' i j hi hj
      rw [hext] at this
      exact this

/-! ## The claim -/

/-- C178: whatever requests are answered and however the call ends, the charts of temperature and wind that it writes agree
with the data files that it writes for the same step. -/
theorem C178_network (net : Net) (e : Environment) (model : Text) (vars : List Text) (filter : List Nat) (tr : List Write)
    (o : Outcome) (h : mainNet net e model vars filter tr o) (run : Run) (hn : '/' ∉ run.name) (step : Nat)
    (bytes : List UInt8) :
    ((⟨binPath run step .temp2m, .bytes bytes⟩ : Write) ∈ tr → TempsAgree e.libm tr run step bytes) ∧
    ((⟨binPath run step .wind10m, .bytes bytes⟩ : Write) ∈ tr → WindsAgree e.libm tr run step bytes) := by
  obtain ⟨run', hs⟩ := source_net net e model vars filter tr o h
  have key : ∀ {b : BinType}, (⟨binPath run step b, .bytes bytes⟩ : Write) ∈ tr →
      ∀ l, outputPath run step l = outputPath run' step l := by
    intro b hb
    obtain ⟨v, step', out, -, hp⟩ := hs.2.1 _ hb
    exact (same_place (o := .bin b) hn hs.1 hp).2.2
  constructor
  · intro hb
    have he := key hb
    unfold TempsAgree
    rw [he]
    refine hs.temp ?_
    unfold binPath at hb ⊢
    rw [← he]
    exact hb
  · intro hb
    have he := key hb
    unfold WindsAgree
    rw [he]
    refine hs.wind ?_
    unfold binPath at hb ⊢
    rw [← he]
    exact hb

/-- C178: the same with a network that answers each request for a file alike. -/
theorem C178_agree (e : Environment) (model : Text) (vars : List Text) (filter : List Nat) (tr : List Write)
    (o : Outcome) (h : mainEffect e model vars filter tr o) (run : Run) (hn : '/' ∉ run.name) (step : Nat)
    (bytes : List UInt8) :
    ((⟨binPath run step .temp2m, .bytes bytes⟩ : Write) ∈ tr → TempsAgree e.libm tr run step bytes) ∧
    ((⟨binPath run step .wind10m, .bytes bytes⟩ : Write) ∈ tr → WindsAgree e.libm tr run step bytes) :=
  C178_network (fun url a => a = e.world.download url) e model vars filter tr o
    ((C176_reliable _ e (fun _ _ => Iff.rfl) model vars filter tr o).mpr h) run hn step bytes

/-- What agreement of the missing values means: nothing is drawn exactly where the wind file has no wind; nothing is drawn
for temperature only where the file has 255, and a byte below 255 is drawn. -/
theorem C178_missing :
    (∀ col bu bv, WindAgrees col bu bv → (col = Color.transparent ↔ bu = 255) ∧ (bu = 255 ↔ bv = 255)) ∧
    ∀ col b, TempAgrees col b → (col = Color.transparent → b = 255) ∧ (b ≠ 255 → col ≠ Color.transparent) ∧
      (b = 255 → col = Color.transparent ∨ tempColors[28]? = some col) := by
  have w : ∀ c ∈ windColors, c ≠ Color.transparent := by decide +kernel
  have t : ∀ c ∈ tempColors, c ≠ Color.transparent := by decide +kernel
  refine ⟨fun col bu bv h => ?_, fun col b h => ?_⟩
  · rcases h with ⟨h1, h2, h3⟩ | ⟨h1, h2, i, hi, -⟩
    · exact ⟨⟨fun _ => h2, fun _ => h1⟩, fun _ => h3, fun _ => h2⟩
    · exact ⟨⟨fun h => absurd h (w _ (List.mem_of_getElem? hi)), fun h => absurd h h1⟩, fun h => absurd h h1, fun h => absurd h h2⟩
  · rcases h with ⟨h1, h2⟩ | ⟨i, hi, h⟩
    · exact ⟨fun _ => h2, fun h => absurd h2 h, fun _ => .inl h1⟩
    · have hc := t _ (List.mem_of_getElem? hi)
      refine ⟨fun h => absurd h hc, fun _ => hc, fun hb => .inr ?_⟩
      subst hb
      rcases h with ⟨rfl, h⟩ | ⟨-, h | h⟩
      · exact hi
      · exact h ▸ hi
      · exfalso
        have hl : i < 29 := (List.getElem?_eq_some_iff.mp hi).1
        have hl : (i : Rat) ≤ 28 := by exact_mod_cast Nat.le_of_lt_succ hl
        rw [show UInt8.toNat 255 = 255 from rfl] at h
        push_cast at h
        linarith

/-- Agreement is not trivial: the colour of 26 to 28 degrees agrees with 27 degrees in the file, and not with 20 degrees; the
colour of 10 to 15 knots agrees with components of 5 and 11 knots, and not with 20 and 11. -/
example : TempAgrees ⟨255, 51, 0, 127⟩ 182 ∧ ¬TempAgrees ⟨255, 51, 0, 127⟩ 168 ∧
    WindAgrees ⟨255, 255, 0, 255⟩ 133 139 ∧ ¬WindAgrees ⟨255, 255, 0, 255⟩ 148 139 := by
  have key : ∀ i < 29, tempColors[i]? = some ⟨255, 51, 0, 127⟩ → i = 22 := by decide +kernel
  have keyw : ∀ i < 9, windColors[i]? = some ⟨255, 255, 0, 255⟩ → i = 2 := by decide +kernel
  refine ⟨.inr ⟨22, by decide +kernel, .inr ⟨.inr (by decide +kernel), .inr (by decide +kernel)⟩⟩, ?_,
    .inr ⟨by decide, by decide, 2, by decide +kernel, fun _ _ _ _ => ⟨?_, ?_⟩⟩, ?_⟩
  · rintro (⟨h, -⟩ | ⟨i, hi, h⟩)
    · cases h
    · obtain rfl := key i (List.getElem?_eq_some_iff.mp hi).1 hi
      exact absurd h (by decide +kernel)
  · intro j L hj hL
    have : ∀ j < 2, ∀ L ∈ windKnots[j]?, (L - 3 / 4) ^ 2 ≤ ((UInt8.toNat 133 : Rat) - 128) ^ 2 + ((UInt8.toNat 139 : Rat) - 128) ^ 2 := by
      decide +kernel
    exact this j hj L hL
  · intro j H hj hH
    have : ∀ j < 8, 2 ≤ j → ∀ H ∈ windKnots[j]?,
        ((UInt8.toNat 133 : Rat) - 128) ^ 2 + ((UInt8.toNat 139 : Rat) - 128) ^ 2 < (H + 3 / 4) ^ 2 := by
      decide +kernel
    exact this j (List.getElem?_eq_some_iff.mp hH).1 hj H hH
  · rintro (⟨h, -⟩ | ⟨-, -, i, hi, h⟩)
    · cases h
    · obtain rfl := keyw i (List.getElem?_eq_some_iff.mp hi).1 hi
      have h := (h (by decide) (by decide) (by decide) (by decide)).2 2 15 (Nat.le_refl _) rfl
      exact absurd h (by decide +kernel)

end Verif.Props
