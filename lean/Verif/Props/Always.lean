import Verif.Props.Calls
import Verif.Props.Imaging
import Verif.Props.Catalogue

/-!
# C71, C88, C115: how the claims fail in general

Beside the single counterexamples: which lines far outside the picture are drawn inside it (C71), that no name in the
variable filter is ever reported (C88), and which successful runs write nothing (C115).
-/

namespace Verif.Props

open Verif MapTileRenderer
open Verif.Spec (AccurateRow)
open Verif.Spec.Grib2 (Msg)

/-! ## C71: lines far outside of the picture -/

theorem asU32_shift (n k : Int) : asU32 (n + k * 2 ^ 32) = asU32 n := by
  unfold asU32
  rw [Int.add_mul_emod_self_right]

/-- What a round of the loop does to the position. -/
theorem round_ok {dx dy sx sy : Int} {s s' : Drawable.LineState}
    (h : (do
      let err2 ← ckI64 (2 * s.err)
      let s ← Drawable.stepX dx dy sx err2 s
      Drawable.stepY dx dy sy err2 s) = .ok s') :
    (s'.x = s.x ∨ s'.x = s.x + sx) ∧ (s'.y = s.y ∨ s'.y = s.y + sy) ∧
    ∀ a b : Int, ckI64 (s'.x + a) = .ok (s'.x + a) → ckI64 (s'.y + b) = .ok (s'.y + b) →
      (do
        let err2 ← ckI64 (2 * s.err)
        let s ← Drawable.stepX dx dy sx err2 ⟨s.x + a, s.y + b, s.err⟩
        Drawable.stepY dx dy sy err2 s) = .ok (⟨s'.x + a, s'.y + b, s'.err⟩ : Drawable.LineState) := by
  have ck : ∀ {n m : Int}, ckI64 n = .ok m → m = n := by
    intro n m h
    unfold ckI64 at h
    split at h
    · exact (Res.ok.inj h).symm
    · cases h
  cases h0 : ckI64 (2 * s.err) with
  | err => rw [h0] at h; cases h
  | panic => rw [h0] at h; cases h
  | ok e2 =>
  rw [h0] at h
  change (Drawable.stepX dx dy sx e2 s >>= fun s => Drawable.stepY dx dy sy e2 s) = .ok s' at h
  change _ ∧ _ ∧ ∀ a b : Int, _ → _ → (Drawable.stepX dx dy sx e2 _ >>= fun s => Drawable.stepY dx dy sy e2 s) = _
  unfold Drawable.stepX Drawable.stepY at h ⊢
  by_cases c1 : e2 > -dx
  · simp only [if_pos c1] at h ⊢
    cases h1 : ckI64 (s.err - dy) with
    | err => rw [h1] at h; cases h
    | panic => rw [h1] at h; cases h
    | ok e1 =>
    rw [h1] at h
    cases h2 : ckI64 (s.x + sx) with
    | err => simp only [Res.bind_ok, h2] at h; cases h
    | panic => simp only [Res.bind_ok, h2] at h; cases h
    | ok x1 =>
    simp only [Res.bind_ok, h2] at h
    by_cases c2 : e2 < dy
    · simp only [if_pos c2] at h ⊢
      cases h3 : ckI64 (e1 + dx) with
      | err => rw [h3] at h; cases h
      | panic => rw [h3] at h; cases h
      | ok e3 =>
      rw [h3] at h
      cases h4 : ckI64 (s.y + sy) with
      | err => simp only [Res.bind_ok, h4] at h; cases h
      | panic => simp only [Res.bind_ok, h4] at h; cases h
      | ok y1 =>
      simp only [Res.bind_ok, h4] at h
      obtain rfl := Res.ok.inj h
      refine ⟨.inr (ck h2), .inr (ck h4), fun a b ha hb => ?_⟩
      have e1' := ck h2
      have e2' := ck h4
      simp only [Res.bind_ok]
      rw [show s.x + a + sx = x1 + a by omega, ha]
      simp only [Res.bind_ok, h3]
      rw [show s.y + b + sy = y1 + b by omega, hb]
      rfl
    · simp only [if_neg c2] at h ⊢
      obtain rfl := Res.ok.inj h
      refine ⟨.inr (ck h2), .inl rfl, fun a b ha hb => ?_⟩
      have e1' := ck h2
      simp only [Res.bind_ok]
      rw [show s.x + a + sx = x1 + a by omega, ha]
      simp only [Res.bind_ok]
  · simp only [if_neg c1, Res.bind_ok] at h ⊢
    by_cases c2 : e2 < dy
    · simp only [if_pos c2] at h ⊢
      cases h3 : ckI64 (s.err + dx) with
      | err => rw [h3] at h; cases h
      | panic => rw [h3] at h; cases h
      | ok e3 =>
      rw [h3] at h
      cases h4 : ckI64 (s.y + sy) with
      | err => simp only [Res.bind_ok, h4] at h; cases h
      | panic => simp only [Res.bind_ok, h4] at h; cases h
      | ok y1 =>
      simp only [Res.bind_ok, h4] at h
      obtain rfl := Res.ok.inj h
      refine ⟨.inl rfl, .inr (ck h4), fun a b ha hb => ?_⟩
      have e2' := ck h4
      simp only [Res.bind_ok]
      rw [show s.y + b + sy = y1 + b by omega, hb]
      rfl
    · simp only [if_neg c2] at h ⊢
      obtain rfl := Res.ok.inj h
      exact ⟨.inl rfl, .inl rfl, fun a b ha hb => rfl⟩

/-- A loop that ends has gone towards its end. -/
theorem lineLoop_towards {dx dy sx sy x1 y1 : Int} (hx : sx = 1 ∨ sx = -1) (hy : sy = 1 ∨ sy = -1) {c : Color} :
    ∀ (n : Nat) (d d' : Drawable) (s : Drawable.LineState), Drawable.lineLoop dx dy sx sy x1 y1 c n d s = some (.ok d') →
      sx * s.x ≤ sx * x1 ∧ sy * s.y ≤ sy * y1
  | 0, d, d', s, h => by cases h
  | n + 1, d, d', s, h => by
    unfold Drawable.lineLoop at h
    split at h
    · split at h
      · rename_i e
        rw [e.1, e.2]; exact ⟨le_refl _, le_refl _⟩
      · split at h
        · rename_i e
          obtain ⟨r1, r2, -⟩ := round_ok e
          have := lineLoop_towards hx hy n _ _ _ h
          rcases hx with rfl | rfl <;> rcases hy with rfl | rfl <;> omega
        · cases h
        · cases h
    · cases h
    · cases h

theorem ck_of {n : Int} (h0 : -2 ^ 63 ≤ n) (h1 : n < 2 ^ 63) : ckI64 n = .ok n := by
  unfold ckI64; exact if_pos ⟨h0, h1⟩

/-- The loop draws the same when its coordinates are shifted by multiples of 2^32. -/
theorem lineLoop_shift {dx dy sx sy x1 y1 : Int} (hx : sx = 1 ∨ sx = -1) (hy : sy = 1 ∨ sy = -1) {c : Color}
    (bx1 : |x1| ≤ 2 ^ 32) (by1 : |y1| ≤ 2 ^ 32) {k l : Int} (hk : |k| ≤ 2 ^ 30) (hl : |l| ≤ 2 ^ 30) :
    ∀ (n : Nat) (d d' : Drawable) (s : Drawable.LineState), |s.x| ≤ 2 ^ 32 → |s.y| ≤ 2 ^ 32 →
      Drawable.lineLoop dx dy sx sy x1 y1 c n d s = some (.ok d') →
      Drawable.lineLoop dx dy sx sy (x1 + k * 2 ^ 32) (y1 + l * 2 ^ 32) c n d
        ⟨s.x + k * 2 ^ 32, s.y + l * 2 ^ 32, s.err⟩ = some (.ok d')
  | 0, d, d', s, _, _, h => by cases h
  | n + 1, d, d', s, bx, by', h => by
    unfold Drawable.lineLoop at h ⊢
    simp only [asU32_shift]
    split at h
    · rename_i d2 e
      split at h
      · rename_i e
        rw [if_pos ⟨by rw [e.1], by rw [e.2]⟩]; exact h
      · rename_i ne
        rw [if_neg fun q => ne ⟨by have := q.1; omega, by have := q.2; omega⟩]
        split at h
        · rename_i s' e
          obtain ⟨r1, r2, r3⟩ := round_ok e
          obtain ⟨t1, t2⟩ := lineLoop_towards hx hy n _ _ _ h
          norm_num only [abs_le] at bx1 by1 hk hl bx by'
          have bx' : -4294967296 ≤ s'.x ∧ s'.x ≤ 4294967296 := by
            rcases hx with rfl | rfl <;> omega
          have by'' : -4294967296 ≤ s'.y ∧ s'.y ≤ 4294967296 := by
            rcases hy with rfl | rfl <;> omega
          rw [r3 (k * 2 ^ 32) (l * 2 ^ 32) (ck_of (by norm_num only; omega) (by norm_num only; omega))
            (ck_of (by norm_num only; omega) (by norm_num only; omega))]
          exact lineLoop_shift hx hy (by norm_num only [abs_le]; exact bx1) (by norm_num only [abs_le]; exact by1)
            (by norm_num only [abs_le]; exact hk) (by norm_num only [abs_le]; exact hl) n _ _ s'
            (by norm_num only [abs_le]; exact bx') (by norm_num only [abs_le]; exact by'') h
        · cases h
        · cases h
    · cases h
    · cases h

/-- C71, how it fails: every line inside the picture is drawn exactly as it is when both its ends are moved out of the picture by the same
multiple of 2^32 to the right or left, and likewise up or down; no such line panics. -/
theorem C71_wraps {d : Drawable} (hd : d.WF) {x0 y0 x1 y1 : Int}
    (bx0 : 0 ≤ x0 ∧ x0 < d.width) (by0 : 0 ≤ y0 ∧ y0 < d.height)
    (bx1 : 0 ≤ x1 ∧ x1 < d.width) (by1 : 0 ≤ y1 ∧ y1 < d.height) (c : Color) {k l : Int} (hk : |k| ≤ 2 ^ 30) (hl : |l| ≤ 2 ^ 30) :
    ∃ d' n, ∀ rounds, n ≤ rounds → d.drawLine rounds x0 y0 x1 y1 c = some (.ok d') ∧
      d.drawLine rounds (x0 + k * 2 ^ 32) (y0 + l * 2 ^ 32) (x1 + k * 2 ^ 32) (y1 + l * 2 ^ 32) c = some (.ok d') := by
  obtain ⟨d', n, h, -⟩ := C70_distance_partial hd bx0 by0 bx1 by1 c
  refine ⟨d', n, fun rounds hr => ⟨h rounds hr, ?_⟩⟩
  have h := h rounds hr
  have hw : (d.width : Int) ≤ 2 ^ 32 ∧ (d.height : Int) ≤ 2 ^ 32 := by
    have hb := hd.2
    have w0 : 1 ≤ d.width := by omega
    have h0 : 1 ≤ d.height := by omega
    have := Nat.le_mul_of_pos_right d.width h0
    have := Nat.le_mul_of_pos_left d.height w0
    norm_num only
    omega
  norm_num only at hw
  unfold Drawable.drawLine at h ⊢
  simp only [gt_iff_lt, add_lt_add_iff_right, add_sub_add_right_eq_sub]
  split at h
  · rename_i dx dy ex ey
    simp only [gt_iff_lt] at ex ey
    rw [ex, ey]
    refine lineLoop_shift (by split <;> simp) (by split <;> simp) ?_ ?_ hk hl _ _ _ ⟨x0, y0, _⟩ ?_ ?_ h <;>
      norm_num only [abs_le] <;> omega
  · cases h

/-- A line of the picture of five by five, 3 * 2^32 pixels to the left and 2^32 up. -/
example : ∃ d' n, ∀ rounds, n ≤ rounds → blank5.drawLine rounds 0 1 4 3 black = some (.ok d') ∧
    blank5.drawLine rounds (0 + -3 * 2 ^ 32) (1 + 1 * 2 ^ 32) (4 + -3 * 2 ^ 32) (3 + 1 * 2 ^ 32) black = some (.ok d') :=
  C71_wraps (d := blank5) ⟨rfl, by decide⟩ (by decide) (by decide) (by decide) (by decide) black (by decide) (by decide)

/-! ## C88: names that select nothing -/

/-- C88, how it fails: a name that is not one of the five names of variables is never reported; beside other names it makes no
difference at all, whichever names they are. -/
theorem C88_never (e : Environment) (model : Text) {vars vars' : List Text} (hn : vars ≠ []) (hn' : vars' ≠ [])
    (h : ∀ n ∈ knownNames, n ∈ vars ↔ n ∈ vars') (filter : List Nat) :
    mainEffect e model vars filter = mainEffect e model vars' filter := by
  have h1 : ∀ v : LayerType, v.name ∈ knownNames → variableChosen vars v = variableChosen vars' v := by
    intro v hv
    rw [Bool.eq_iff_iff, variableChosen_iff, variableChosen_iff]
    unfold ChosenVar
    rw [h _ hv]
    simp only [hn, hn', false_or]
  have a1 := h1 .cloudPrecip (by decide)
  have a2 := h1 .wind10m (by decide)
  have a3 := h1 .temp2m (by decide)
  have a4 := h1 .verticalCloud (by decide)
  have a5 := h1 .verticalWind (by decide)
  have h2 : (vars.isEmpty || vars.contains LayerType.verticalCloud.name || vars.contains LayerType.verticalWind.name) =
      (vars'.isEmpty || vars'.contains LayerType.verticalCloud.name || vars'.contains LayerType.verticalWind.name) := by
    rw [Bool.eq_iff_iff, vertical_cond, vertical_cond, ← variableChosen_iff, ← variableChosen_iff, ← variableChosen_iff,
      ← variableChosen_iff, a4, a5]
  have hd : ∀ run, Dwd.renderRun e.libm e.world e.dirs vars filter run = Dwd.renderRun e.libm e.world e.dirs vars' filter run := by
    intro run
    unfold Dwd.renderRun
    simp only [a1, a2, a3, a4, a5, h2]
  have hs : ∀ grid url t, Swiss.renderRun e.libm e.world e.service e.calendar e.dirs vars filter grid url t =
      Swiss.renderRun e.libm e.world e.service e.calendar e.dirs vars' filter grid url t := by
    intro grid url t
    unfold Swiss.renderRun
    simp only [a1, a2, a3, a4, a5, h2]
  unfold mainEffect Swiss.renderLatest Dwd.renderLatest
  have hd := funext hd
  simp only [hs, hd]

/-- `temp` beside `wind_10m` is passed over silently. -/
example (e : Environment) (filter : List Nat) : mainEffect e "icon-eu".toList ["wind_10m".toList, "temp".toList] filter =
    mainEffect e "icon-eu".toList ["wind_10m".toList] filter :=
  C88_never e _ (by decide) (by decide) (by decide) filter

/-! ## C115: success without charts -/

theorem some_file {m : Libm} {zooms : Nat × Nat} {l : Layers} (h : CanDraw m zooms l) : ∃ out c, FileOf m zooms l out c := by
  cases l with
  | cloudPrecip l w => obtain ⟨b, hb⟩ := h.2.1; exact ⟨_, _, .precip hb⟩
  | wind l => obtain ⟨b, hb⟩ := h.2; exact ⟨_, _, .wind hb⟩
  | temp l => obtain ⟨b, hb⟩ := h.2; exact ⟨_, _, .temp hb⟩
  | verticalCloud l => obtain ⟨b, hb⟩ := h; exact ⟨_, _, .verticalCloud hb⟩
  | verticalWind l => obtain ⟨b, hb⟩ := h; exact ⟨_, _, .verticalWind hb⟩

/-- C115, how it fails: rendering a MeteoSwiss run successfully writes nothing exactly if none of the selected variables has
a selected step among the files that the search returns. -/
theorem C115_exact (m : Libm) (w : World) (s : Swiss.Service) (cal : Swiss.Calendar) (dirs : Text → Bool) (vars : List Text)
    (filter : List Nat) (grid : UnstructuredGrid) (vertUrl : Text) (t : Instant) (tr : List Write)
    (h : Swiss.renderRun m w s cal dirs vars filter grid vertUrl t tr .done) :
    tr = [] ↔ ∀ v, ChosenVar vars v → ∀ steps, swissSteps s t v = .ok steps → ∀ st ∈ steps, ¬ Chosen filter st := by
  constructor
  · rintro rfl v hv steps hs st hst hc
    have hw : v ≠ .weather := by rintro rfl; cases hs
    obtain ⟨run, steps', h1, h2, h3⟩ := C90_swiss m w s cal dirs vars filter grid vertUrl t [] h v hv hw
    rw [hs] at h2
    obtain rfl := Res.ok.inj h2
    obtain ⟨l, hl, hd⟩ := h3 st hst hc
    obtain ⟨out, c, hf⟩ := some_file hd
    have := (C87_swiss_files m w s cal dirs vars filter grid vertUrl t [] h (fun _ => none) (out.path run st.nr)).1 c
      ⟨v, hv, run, steps, h1, hs, st, hst, hc, l, hl, out, hf, rfl⟩
    cases this
  · intro hn
    by_contra hne
    obtain ⟨x, hx⟩ := List.exists_mem_of_ne_nil _ hne
    obtain ⟨out, run, steps, hv, -, hs, st, hst, hc, -⟩ := C87_swiss_only _ _ _ _ _ _ _ _ _ _ _ _ h x hx
    exact hn _ hv _ hs st hst hc

/-- C115, for clouds and precipitation: while a run has no file of the cloud cover but the one of its first hour, a successful
call for them writes nothing. -/
theorem C115_first_hour (m : Libm) (w : World) (s : Swiss.Service) (cal : Swiss.Calendar) (dirs : Text → Bool)
    (filter : List Nat) (grid : UnstructuredGrid) (vertUrl : Text) (t : Instant) (tr : List Write)
    (h : Swiss.renderRun m w s cal dirs [LayerType.cloudPrecip.name] filter grid vertUrl t tr .done)
    {features : List SwissSearch.Feature} {files : List SwissSearch.Step} (hs : s.search .clct t = .ok features)
    (hf : SwissSearch.findFiles features = .ok files) (hl : files.length ≤ 1) : tr = [] := by
  refine (C115_exact m w s cal dirs _ filter grid vertUrl t tr h).mpr fun v hv steps he st hst _ => ?_
  have e : v = .cloudPrecip := by
    rcases hv with hv | hv
    · cases hv
    · have := List.mem_singleton.mp hv
      revert this
      cases v <;> decide
  subst e
  have he : Swiss.steps s t .clct true = .ok steps := he
  unfold Swiss.steps at he
  rw [hs, Res.bind_ok, hf, Res.bind_ok] at he
  obtain rfl := Res.ok.inj he
  match files, hl with
  | [], _ => cases hst
  | [f], _ => cases hst

/-- The hypotheses can be met: a call for clouds while only the temperature of the newest run is published. -/
example (m : Libm) (hm : AccurateRow m) (dirs : Text → Bool) (f : Msg) (h : f.ok) (hk : f.product.known) (hf : FullField f 4)
    (filter : List Nat) : ∃ grid, Swiss.renderRun (webEnv m f partCatalogue dirs).libm
      (webEnv m f partCatalogue dirs).world (webOf partCatalogue).service Swiss.chrono (webEnv m f partCatalogue dirs).dirs
      [LayerType.cloudPrecip.name] filter grid "vert".toList augustThree [] .done := by
  have c := (C115_counterexample m hm dirs f h hk hf filter).2
  refine Exists.elim c.1 fun tr h1 => ?_
  have e := (c.2 tr _ h1).1
  rw [e] at h1
  have pm := part_meets h hk m dirs
  generalize webEnv m f partCatalogue dirs = E at h1 pm ⊢
  generalize "vert".toList = V at pm ⊢
  generalize "hor".toList = H at pm
  generalize webOf partCatalogue = W at pm ⊢
  exact Exists.imp (fun _ h => h.2) (main_run pm h1)

end Verif.Props
