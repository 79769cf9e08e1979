import Verif.Props.Locality

/-!
# C191: the same data gives the same files, whatever run, hour or model it is published for
-/

namespace Verif.Props

open Verif MapTileRenderer
open Verif.Dwd
open Verif.Spec (AccurateRow)

/-- The same file with another hour: hour `n` becomes `n'`, and the hours before and after move along. -/
def moved (n n' : Nat) : Req → Req
  | .single x h => .single x (h + n' - n)
  | .level x h k => .level x (h + n' - n) k
  | .hhl k => .hhl k

/-- One server has at the address of one file what the other has at the address of the other file. -/
def PublishedAlike (w : World) (run : Run) (r : Req) (w' : World) (run' : Run) (r' : Req) : Prop :=
  ∀ url url', fileUrl run r = .ok url → fileUrl run' r' = .ok url' → w.stream url = w'.stream url'

/-- A file that both models write if they have the same data: the zoom levels and the heights are those of both. -/
def InBoth (a b : FcModel) : Output → Prop
  | .cloudPrecipTile t => t.zoom ≤ a.zoomRange.2 ∧ t.zoom ≤ b.zoomRange.2
  | .windTile t => t.zoom ≤ a.zoomRange.2 ∧ t.zoom ≤ b.zoomRange.2
  | .tempTile t => t.zoom ≤ a.zoomRange.2 ∧ t.zoom ≤ b.zoomRange.2
  | .bin .verticalClouds => a.verticalLevels = b.verticalLevels
  | .bin .verticalWind => a.verticalLevels = b.verticalLevels
  | .bin _ => True

theorem readRect_same {T : Type} {w w' : World} {run run' : Run} (hm : IsDwd run.model) (hm' : IsDwd run'.model) {r r' : Req}
    {missing : T} {f : Fl → T} (h : PublishedAlike w run r w' run' r') :
    Res.bind (fileUrl run r) (fun url => w.readRectangular url missing f) =
      Res.bind (fileUrl run' r') (fun url => w'.readRectangular url missing f) := by
  obtain ⟨url, hu, -⟩ := C52_download hm r
  obtain ⟨url', hu', -⟩ := C52_download hm' r'
  rw [hu, hu']
  change w.readRectangular url missing f = w'.readRectangular url' missing f
  unfold World.readRectangular World.readSingle
  rw [h url url' hu hu']

theorem dwdGrid_same {w w' : World} {run run' : Run} (hm : IsDwd run.model) (hm' : IsDwd run'.model) {x : SingleVar} {n n' : Nat}
    (h : PublishedAlike w run (.single x n) w' run' (.single x n')) : dwdGrid w run x n = dwdGrid w' run' x n' := readRect_same hm hm' h

theorem dwdLayers_same {w w' : World} {run run' : Run} (hm : IsDwd run.model) (hm' : IsDwd run'.model) {v : LayerType} {n n' : Nat}
    (hn : 1 ≤ n) (hl : v = .verticalCloud ∨ v = .verticalWind → run.model.verticalLevels = run'.model.verticalLevels)
    (h : ∀ r, Uses run.model v n r → PublishedAlike w run r w' run' (moved n n' r)) :
    dwdLayers w run v n = dwdLayers w' run' v n' := by
  have e0 : n + n' - n = n' := by omega
  have e1 : n - 1 + n' - n = n' - 1 := by omega
  cases v with
  | cloudPrecip =>
    have a1 := h (.single .clctMod n) (by simp [Uses])
    have a2 := h (.single .totPrec (n - 1)) (by simp [Uses])
    have a3 := h (.single .totPrec n) (by simp [Uses])
    have a4 := h (.single .ceiling n) (by simp [Uses])
    have a5 := h (.single .ww n) (by simp [Uses])
    simp only [moved, e0, e1] at a1 a2 a3 a4 a5
    simp only [dwdLayers]
    rw [dwdGrid_same hm hm' a1, dwdGrid_same hm hm' a2, dwdGrid_same hm hm' a3, dwdGrid_same hm hm' a4, dwdGrid_same hm hm' a5]
  | wind10m =>
    have a1 := h (.single .u10m n) (by simp [Uses])
    have a2 := h (.single .v10m n) (by simp [Uses])
    have a3 := h (.single .vmax10m n) (by simp [Uses])
    simp only [moved, e0] at a1 a2 a3
    simp only [dwdLayers]
    rw [dwdGrid_same hm hm' a1, dwdGrid_same hm hm' a2, dwdGrid_same hm hm' a3]
  | temp2m =>
    have a1 := h (.single .t2m n) rfl
    simp only [moved, e0] at a1
    simp only [dwdLayers]
    rw [dwdGrid_same hm hm' a1]
  | verticalCloud =>
    have a1 : ∀ k, run.model.verticalLevels.1 ≤ k → k ≤ run.model.verticalLevels.2 → PublishedAlike w run (.hhl k) w' run' (.hhl k) :=
      fun k h1 h2 => h (.hhl k) ⟨k, h1, h2, .inl rfl⟩
    have a2 : ∀ k, run.model.verticalLevels.1 ≤ k → k ≤ run.model.verticalLevels.2 →
        PublishedAlike w run (.level .clc n k) w' run' (.level .clc n' k) := fun k h1 h2 => by
      have := h (.level .clc n k) ⟨k, h1, h2, .inr rfl⟩
      simpa only [moved, e0] using this
    simp only [dwdLayers]
    rw [← hl (.inl rfl)]
    have h1 : readHhl w run run.model.verticalLevels = readHhl w' run' run.model.verticalLevels :=
      mapM_congr fun k hk => readRect_same hm hm' (a1 k (mem_rangeIncl.mp hk).1 (mem_rangeIncl.mp hk).2)
    have h2 : readClc w run ⟨n, []⟩ run.model.verticalLevels = readClc w' run' ⟨n', []⟩ run.model.verticalLevels :=
      mapM_congr fun k hk => readRect_same hm hm' (a2 k (mem_rangeIncl.mp hk).1 (mem_rangeIncl.mp hk).2)
    rw [h1, h2]
  | verticalWind =>
    have a1 : ∀ k, run.model.verticalLevels.1 ≤ k → k ≤ run.model.verticalLevels.2 → PublishedAlike w run (.hhl k) w' run' (.hhl k) :=
      fun k h1 h2 => h (.hhl k) ⟨k, h1, h2, .inl rfl⟩
    have a2 : ∀ k, run.model.verticalLevels.1 ≤ k → k ≤ run.model.verticalLevels.2 →
        PublishedAlike w run (.level .u n k) w' run' (.level .u n' k) := fun k h1 h2 => by
      have := h (.level .u n k) ⟨k, h1, h2, .inr (.inl rfl)⟩
      simpa only [moved, e0] using this
    have a3 : ∀ k, run.model.verticalLevels.1 ≤ k → k ≤ run.model.verticalLevels.2 →
        PublishedAlike w run (.level .v n k) w' run' (.level .v n' k) := fun k h1 h2 => by
      have := h (.level .v n k) ⟨k, h1, h2, .inr (.inr rfl)⟩
      simpa only [moved, e0] using this
    simp only [dwdLayers]
    rw [← hl (.inr rfl)]
    have h1 : readHhl w run run.model.verticalLevels = readHhl w' run' run.model.verticalLevels :=
      mapM_congr fun k hk => readRect_same hm hm' (a1 k (mem_rangeIncl.mp hk).1 (mem_rangeIncl.mp hk).2)
    have h2 : readUV w run .u ⟨n, []⟩ run.model.verticalLevels = readUV w' run' .u ⟨n', []⟩ run.model.verticalLevels :=
      mapM_congr fun k hk => readRect_same hm hm' (a2 k (mem_rangeIncl.mp hk).1 (mem_rangeIncl.mp hk).2)
    have h3 : readUV w run .v ⟨n, []⟩ run.model.verticalLevels = readUV w' run' .v ⟨n', []⟩ run.model.verticalLevels :=
      mapM_congr fun k hk => readRect_same hm hm' (a3 k (mem_rangeIncl.mp hk).1 (mem_rangeIncl.mp hk).2)
    rw [h1, h2, h3]
  | weather => rfl

theorem PublishedAlike.symm {w w' : World} {run run' : Run} {r r' : Req} (h : PublishedAlike w run r w' run' r') :
    PublishedAlike w' run' r' w run r := fun url url' h1 h2 => (h url' url h2 h1).symm

theorem zoom_zero (a : FcModel) : a.zoomRange.1 = 0 := by cases a <;> rfl

theorem FileOf.inBoth {m : Libm} {a b : FcModel} {l : Layers} {out : Output} {c : Content} (h : FileOf m a.zoomRange l out c)
    (hb : InBoth a b out) : FileOf m b.zoomRange l out c := by
  have key : ∀ {e t}, t.zoom ≤ b.zoomRange.2 → Needed m e a.zoomRange t → Needed m e b.zoomRange t := by
    rintro e t hz ⟨-, -, r⟩
    exact ⟨by rw [zoom_zero]; exact Nat.zero_le _, hz, r⟩
  cases h with
  | cloudPrecipTile hn hd => exact .cloudPrecipTile (key hb.2 hn) hd
  | precip h => exact .precip h
  | weather h => exact .weather h
  | windTile hn hd => exact .windTile (key hb.2 hn) hd
  | wind h => exact .wind h
  | tempTile hn hd => exact .tempTile (key hb.2 hn) hd
  | temp h => exact .temp h
  | verticalCloud h => exact .verticalCloud h
  | verticalWind h => exact .verticalWind h

theorem InBoth.levels {a b : FcModel} {out : Output} (h : InBoth a b out)
    (hv : out.variable = .verticalCloud ∨ out.variable = .verticalWind) : a.verticalLevels = b.verticalLevels := by
  cases out with
  | bin t => cases t <;> first | exact h | (rcases hv with hv | hv <;> cases hv)
  | cloudPrecipTile t => rcases hv with hv | hv <;> cases hv
  | windTile t => rcases hv with hv | hv <;> cases hv
  | tempTile t => rcases hv with hv | hv <;> cases hv

theorem same_forward {m : Libm} {w w' : World} {dirs dirs' : Text → Bool} {vars vars' : List Text} {filter filter' : List Nat}
    {run run' : Run} (hn : '/' ∉ run.name) {tr tr' : List Write}
    (h : Dwd.renderRun m w dirs vars filter run tr .done) (h' : Dwd.renderRun m w' dirs' vars' filter' run' tr' .done)
    {out : Output} (hv' : ChosenVar vars' out.variable) {s s' : RunStep}
    (hs' : s' ∈ run'.model.forecastSteps) (hc' : Chosen filter' s') (hb : InBoth run.model run'.model out)
    (he : dwdLayers w run out.variable s.nr = dwdLayers w' run' out.variable s'.nr) {c : Content}
    (hx : ⟨out.path run s.nr, c⟩ ∈ tr) : ⟨out.path run' s'.nr, c⟩ ∈ tr' := by
  obtain ⟨out', -, s1, hs1, -, hp, l, hl, hf⟩ := C87_dwd_only m w dirs vars filter run tr _ h _ hx
  obtain ⟨e1, e2⟩ := C54_same_run run hn hp
  subst e2
  rw [← e1] at hl
  refine (writes_dwd m w' dirs' vars' filter' run').all tr' h' _ ⟨out.variable, hv', s', hs', hc', l, ?_, out, hf.inBoth hb, rfl⟩
  exact he.symm.trans hl

/-- **C191.** Two runs of DWD are rendered successfully, of any models, days and hours, from any servers, and an hour of one run has on its
server the same data as another hour (or the same) of the other run.  Then the files of the two hours are the same: what is
written for one of them at its place is written for the other one at its place, for each file that both models have. -/
theorem C191_same_data {m : Libm} {w w' : World} {dirs dirs' : Text → Bool} {vars vars' : List Text} {filter filter' : List Nat}
    {run run' : Run} (hm : IsDwd run.model) (hm' : IsDwd run'.model) (hn : '/' ∉ run.name) (hn' : '/' ∉ run'.name)
    {tr tr' : List Write}
    (h : Dwd.renderRun m w dirs vars filter run tr .done) (h' : Dwd.renderRun m w' dirs' vars' filter' run' tr' .done)
    {out : Output} (hv : ChosenVar vars out.variable) (hv' : ChosenVar vars' out.variable) {s s' : RunStep}
    (hs : s ∈ run.model.forecastSteps) (hs' : s' ∈ run'.model.forecastSteps) (hc : Chosen filter s) (hc' : Chosen filter' s')
    (hb : InBoth run.model run'.model out)
    (hd : ∀ r, Uses run.model out.variable s.nr r → PublishedAlike w run r w' run' (moved s.nr s'.nr r)) (c : Content) :
    ⟨out.path run s.nr, c⟩ ∈ tr ↔ ⟨out.path run' s'.nr, c⟩ ∈ tr' := by
  have h1 : 1 ≤ s.nr := by
    obtain ⟨_, _, q⟩ := C55_dwd run.model
    have := (q s hs).1
    omega
  have he := dwdLayers_same hm hm' h1 hb.levels hd
  have hb' : InBoth run'.model run.model out := by
    cases out with
    | bin t => cases t <;> first | exact hb.symm | trivial
    | _ => exact hb.symm
  exact ⟨same_forward hn h h' hv' hs' hc' hb he, same_forward hn' h' h hv hs hc hb' he.symm⟩

/-- **C191** for the program: two successful calls, for the same model or for different ones, on any days, each of which finds a run of
its day. -/
theorem C191_calls {e e' : Environment} (hl : e.libm = e'.libm) {model model' : FcModel} (hm : IsDwd model) (hm' : IsDwd model')
    {name name' : Text} (hn : Newest e.available model e.today name) (hn' : Newest e'.available model' e'.today name')
    {vars vars' : List Text} {filter filter' : List Nat} {tr tr' : List Write}
    (h : mainEffect e (dwdName model) vars filter tr .done) (h' : mainEffect e' (dwdName model') vars' filter' tr' .done)
    {out : Output} (hv : ChosenVar vars out.variable) (hv' : ChosenVar vars' out.variable) {s s' : RunStep}
    (hs : s ∈ model.forecastSteps) (hs' : s' ∈ model'.forecastSteps) (hc : Chosen filter s) (hc' : Chosen filter' s')
    (hb : InBoth model model' out)
    (hd : ∀ r, Uses model out.variable s.nr r →
      PublishedAlike e.world ⟨model, e.today, name⟩ r e'.world ⟨model', e'.today, name'⟩ (moved s.nr s'.nr r)) (c : Content) :
    ⟨out.path ⟨model, e.today, name⟩ s.nr, c⟩ ∈ tr ↔ ⟨out.path ⟨model', e'.today, name'⟩ s'.nr, c⟩ ∈ tr' := by
  rw [C154_run e model hm name hn] at h
  rw [C154_run e' model' hm' name' hn', ← hl] at h'
  exact C191_same_data (run := ⟨model, e.today, name⟩) (run' := ⟨model', e'.today, name'⟩) hm hm' (newestName_no_slash hn.1)
    (newestName_no_slash hn'.1) h h' hv hv' hs hs' hc hc' hb hd c

/-- The hypotheses can be met: a server that has the same data for both models and all hours.  The temperature tiles of zoom level 5 of
hour 3 of ICON-D2 are then those of hour 60 of ICON-EU. -/
example (m : Libm) (hm : AccurateRow m) (dirs : Text → Bool) : ∃ tr tr',
    Dwd.renderRun m (constWorld weatherMsg) dirs [] [] ⟨.iconD2, ⟨2025, 8, 5⟩, "06".toList⟩ tr .done ∧
    Dwd.renderRun m (constWorld weatherMsg) dirs [] [] ⟨.iconEu, ⟨2024, 2, 29⟩, "12".toList⟩ tr' .done ∧
    ∀ x y c, ⟨(Output.tempTile ⟨x, y, 5⟩).path ⟨.iconD2, ⟨2025, 8, 5⟩, "06".toList⟩ 3, c⟩ ∈ tr ↔
      ⟨(Output.tempTile ⟨x, y, 5⟩).path ⟨.iconEu, ⟨2024, 2, 29⟩, "12".toList⟩ 60, c⟩ ∈ tr' := by
  have hp : ∀ run : Run, IsDwd run.model → ∀ r, AreaPublished (constWorld weatherMsg) run demoArea 2 2 r := fun run hd r =>
    ⟨weatherMsg, constWorld_publishes weatherMsg_ok trivial hd r, weatherMsg_area, fun _ _ => weatherMsg_codes⟩
  have go : ∀ run : Run, IsDwd run.model → ∃ tr, Dwd.renderRun m (constWorld weatherMsg) dirs [] [] run tr .done := fun run hd =>
    (C105_run m hm (constWorld weatherMsg) dirs [] [] run hd demoArea demoArea_valid 2 2 (fun _ _ _ _ _ r _ => hp run hd r)
      fun _ k _ _ => hp run hd _).1
  obtain ⟨tr, h⟩ := go ⟨.iconD2, ⟨2025, 8, 5⟩, "06".toList⟩ (.inl rfl)
  obtain ⟨tr', h'⟩ := go ⟨.iconEu, ⟨2024, 2, 29⟩, "12".toList⟩ (.inr rfl)
  refine ⟨tr, tr', h, h', fun x y c => ?_⟩
  refine C191_same_data (.inl rfl) (.inr rfl) (by decide +kernel) (by decide +kernel) h h' (out := .tempTile ⟨x, y, 5⟩) (.inl rfl)
    (.inl rfl) (s := ⟨3, []⟩) (s' := ⟨60, []⟩) (by decide) (by decide) (.inl rfl) (.inl rfl) ⟨by dsimp only; decide, by dsimp only; decide⟩ ?_ c
  rintro r -
  intro url url' hu hu'
  obtain ⟨_, a1, a2, a3⟩ := C52_download (run := ⟨.iconD2, ⟨2025, 8, 5⟩, "06".toList⟩) (.inl rfl) r
  obtain ⟨_, b1, b2, b3⟩ := C52_download (run := ⟨.iconEu, ⟨2024, 2, 29⟩, "12".toList⟩) (.inr rfl) (moved 3 60 r)
  obtain rfl := Res.ok.inj (hu.symm.trans a1)
  obtain rfl := Res.ok.inj (hu'.symm.trans b1)
  unfold World.stream
  rw [if_pos a2, if_pos b2, a3, b3]
  rfl

end Verif.Props
