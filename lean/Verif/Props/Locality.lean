import Verif.Props.ModelFiles
import Verif.Props.SwissDemo
import Verif.Props.MissingTotals

/-!
# Property C171: each byte of a file depends on one point of a few published fields only
-/

namespace Verif.Props

open Verif MapTileRenderer Dwd Metobin
open Verif.Spec (Filled cell)
open Verif.Spec.Grib2 (Msg encode F32Word)
open Verif.Spec.Decode (present rank)

/-! ## Specification -/

/-- Two messages give the same at point `i`: nothing, or the same packed number with the same packing. -/
def SameAt (a b : Msg) (i : Nat) : Prop :=
  a.packing = b.packing ∧ present a.bitmap i = present b.bitmap i ∧
    (present a.bitmap i = true → a.data[rank a.bitmap i]? = b.data[rank b.bitmap i]?)

/-- The number of bytes that a file has for a grid point. -/
def width (levels : Nat) : BinType → Nat
  | .temp2m => 1
  | .precip => 1
  | .weather => 2
  | .wind10m => 3
  | .verticalClouds => levels * 2
  | .verticalWind => levels * 3

/-- The published fields on which byte `j` of a point may depend, for a file of hour `n` and levels from `top`. -/
def sources (top n : Nat) : BinType → Nat → List Req
  | .temp2m, _ => [.single .t2m n]
  | .precip, _ => [.single .totPrec (n - 1), .single .totPrec n]
  | .weather, j => if j = 0 then [.single .ww n, .single .clctMod n] else [.single .ceiling n]
  | .wind10m, j =>
    if j = 2 then [.single .u10m n, .single .v10m n, .single .vmax10m n] else [.single .u10m n, .single .v10m n]
  | .verticalClouds, j => if j % 2 = 0 then [.hhl (top + j / 2)] else [.level .clc n (top + j / 2)]
  | .verticalWind, j =>
    if j % 3 = 0 then [.hhl (top + j / 3)] else [.level .u n (top + j / 3), .level .v n (top + j / 3)]

/-! ## The bytes as a function of the unpacked numbers -/

/-- The unpacked number of point `i`. -/
def unpacked (msg : Msg) (i : Nat) : Option Fl :=
  match msg.packing with
  | .simple ref E D bits typ =>
    if present msg.bitmap i then
      (msg.data[rank msg.bitmap i]?).map fun X => Grib2.unpackValue ⟨ref.value, E, D, bits, typ⟩ X
    else none
  | _ => none

theorem SameAt.unpacked {a b : Msg} {i : Nat} (h : SameAt a b i) : unpacked a i = unpacked b i := by
  obtain ⟨h1, h2, h3⟩ := h
  unfold Props.unpacked
  rw [← h1, ← h2]
  split
  · split
    next hp => rw [h3 hp]
    next => rfl
  · rfl

/-- The value that a reader keeps. -/
def kept {T : Type} [GridValue T] (missing : T) (f : Fl → T) (o : Option Fl) : Option T :=
  o.bind fun v => if GridValue.eq (f v) missing then none else some (f v)

theorem cell_of_packed {T : Type} [GridValue T] {w : World} {run : Run} (hm : IsDwd run.model) {r : Req} {msg : Msg}
    {ni nj : Nat} (hp : Publishes w run r msg) (hf : Field msg ni nj) {missing : T} (heq : GridValue.eq missing missing = true)
    {f : Fl → T} {G : LatLonValueGrid T}
    (h : Res.bind (fileUrl run r) (fun url => w.readRectangular url missing f) = .ok G) :
    Filled G ni nj ∧ ∀ x y, x < ni → y < nj → cell G ni x y = kept missing f (unpacked msg (y * ni + x)) := by
  obtain ⟨ref, _, E, D, bits, typ, hpk, _⟩ := hf.packing
  obtain ⟨g1, g2, g3⟩ := packed_of_field hm hp hf h hpk
  refine ⟨g1, fun x y hx hy => ?_⟩
  obtain ⟨p2, p1⟩ := g3 x y hx hy
  unfold cell kept unpacked
  rw [hpk, g2]
  cases hpr : present msg.bitmap (y * ni + x) with
  | false =>
    rw [p2 hpr]
    simp [heq]
  | true =>
    obtain ⟨X, hX, _, hv⟩ := p1 hpr
    rw [hX, hv]
    simp

theorem num_eq : GridValue.eq (Fl.fin (-1)) (Fl.fin (-1)) = true := by decide +kernel

theorem byte_eq (b : UInt8) : GridValue.eq b b = true := by simp [GridValue.eq]

/-- Numbers read with the missing value -1. -/
abbrev num : Option Fl → Option Fl := kept (.fin (-1)) id

/-- The weather that a code stands for. -/
def meant (o : Option Fl) : Option Weather :=
  match WeatherLayer.interpret o with
  | .ok w => w
  | _ => none

/-- Byte `j` of a grid point. -/
def byteOf (top n : Nat) (v : Req → Option Fl) : BinType → Nat → UInt8
  | .temp2m, _ => tempByte (num (v (.single .t2m n)))
  | .precip, _ => precipByte (some (.fin 0, Fl.sub f32 (unwrapOr (num (v (.single .totPrec n))) (.fin 0))
      (unwrapOr (num (v (.single .totPrec (n - 1)))) (.fin 0))))
  | .weather, j =>
    if j = 0 then wwByte (meant (num (v (.single .ww n)))) (num (v (.single .clctMod n)))
    else ceilingByte (num (v (.single .ceiling n)))
  | .wind10m, j => (windBytes (bothOf (num (v (.single .u10m n))) (num (v (.single .v10m n))))
      (num (v (.single .vmax10m n)))).getD j 0
  | .verticalClouds, j =>
    if j % 2 = 0 then (kept 0 hhlByte (v (.hhl (top + j / 2)))).getD 255
    else (kept 0 clcByte (v (.level .clc n (top + j / 2)))).getD 255
  | .verticalWind, j =>
    if j % 3 = 0 then (kept 0 hhlByte (v (.hhl (top + j / 3)))).getD 255
    else (uvBytes (bothOf (kept 255 uvByte (v (.level .u n (top + j / 3))))
      (kept 255 uvByte (v (.level .v n (top + j / 3)))))).getD (j % 3 - 1) 0

theorem byteOf_sources {top n : Nat} {v v' : Req → Option Fl} {b : BinType} {j : Nat}
    (h : ∀ r ∈ sources top n b j, v r = v' r) : byteOf top n v b j = byteOf top n v' b j := by
  cases b with
  | temp2m => simp only [byteOf, h _ (List.mem_singleton.mpr rfl)]
  | precip =>
    simp only [sources, List.mem_cons, List.not_mem_nil, or_false, forall_eq_or_imp, forall_eq] at h
    simp only [byteOf, h.1, h.2]
  | weather =>
    simp only [sources] at h
    simp only [byteOf]
    split
    next hj =>
      simp only [hj, if_true, List.mem_cons, List.not_mem_nil, or_false, forall_eq_or_imp, forall_eq] at h
      rw [h.1, h.2]
    next hj =>
      simp only [hj, if_false, List.mem_cons, List.not_mem_nil, or_false, forall_eq] at h
      rw [h]
  | wind10m =>
    simp only [sources] at h
    simp only [byteOf]
    by_cases hj : j = 2
    · simp only [hj, if_true, List.mem_cons, List.not_mem_nil, or_false, forall_eq_or_imp, forall_eq] at h
      rw [h.1, h.2.1, h.2.2]
    · simp only [hj, if_false, List.mem_cons, List.not_mem_nil, or_false, forall_eq_or_imp, forall_eq] at h
      rw [h.1, h.2]
      unfold windBytes
      split
      · rcases j with _ | _ | _ | j
        · rfl
        · rfl
        · exact absurd rfl hj
        · rfl
      · rfl
  | verticalClouds =>
    simp only [sources] at h
    simp only [byteOf]
    split
    next hj =>
      simp only [hj, if_true, List.mem_cons, List.not_mem_nil, or_false, forall_eq] at h
      rw [h]
    next hj =>
      simp only [hj, if_false, List.mem_cons, List.not_mem_nil, or_false, forall_eq] at h
      rw [h]
  | verticalWind =>
    simp only [sources] at h
    simp only [byteOf]
    split
    next hj =>
      simp only [hj, if_true, List.mem_cons, List.not_mem_nil, or_false, forall_eq] at h
      rw [h]
    next hj =>
      simp only [hj, if_false, List.mem_cons, List.not_mem_nil, or_false, forall_eq_or_imp, forall_eq] at h
      rw [h.1, h.2]

/-! ## The bytes of the layers -/

theorem foldl_each {α : Type} {g : α → Res (List UInt8)} {l : List α} {out bytes : List UInt8}
    (h : Res.foldl (fun out a => (g a).bind fun b => .ok (out ++ b)) out l = .ok bytes) :
    ∀ a ∈ l, ∃ b, g a = .ok b := by
  induction l generalizing out with
  | nil => simp
  | cons a l ih =>
    simp only [Res.foldl] at h
    obtain ⟨o, h1, h2⟩ := bind_ok' h
    obtain ⟨b, h3, _⟩ := bind_ok' h1
    intro a' ha'
    rcases List.mem_cons.mp ha' with rfl | ha'
    · exact ⟨b, h3⟩
    · exact ih h2 a' ha'

theorem forCells_each {w h : Nat} {f : Nat → Nat → Res (List UInt8)} {bytes : List UInt8} (hb : forCells w h f = .ok bytes) :
    ∀ x y, x < w → y < h → ∃ b, f x y = .ok b := by
  have key : ∀ (l : List Nat) (out bytes : List UInt8),
      Res.foldl (fun out y => Res.foldl (fun out x => (f x y).bind fun b => .ok (out ++ b)) out (List.range w)) out l
        = .ok bytes → ∀ y ∈ l, ∀ x, x < w → ∃ b, f x y = .ok b := by
    intro l
    induction l with
    | nil => simp
    | cons y l ih =>
      intro out bytes h
      simp only [Res.foldl] at h
      obtain ⟨o, h1, h2⟩ := bind_ok' h
      intro y' hy' x hx
      rcases List.mem_cons.mp hy' with rfl | hy'
      · exact foldl_each h1 x (List.mem_range.mpr hx)
      · exact ih _ _ h2 y' hy' x hx
  exact fun x y hx hy => key _ _ _ hb y (List.mem_range.mpr hy) x hx

/-- The bytes of a cell of a file that could be made. -/
theorem forCells_at {w h k : Nat} {f : Nat → Nat → Res (List UInt8)} {bytes : List UInt8} (hb : forCells w h f = .ok bytes)
    (hk : ∀ x y b, x < w → y < h → f x y = .ok b → b.length = k) :
    bytes.length = w * h * k ∧ ∀ x y, x < w → y < h → ∃ b, f x y = .ok b ∧ b.length = k ∧
      ∀ i, i < k → bytes[(y * w + x) * k + i]? = b[i]? := by
  have he := forCells_each hb
  choose! b hb' using he
  obtain ⟨bytes', e1, e2, e3⟩ := forCells_layout (k := k) b hb' fun x y hx hy => hk x y _ hx hy (hb' x y hx hy)
  rw [hb] at e1
  cases e1
  exact ⟨e2, fun x y hx hy => ⟨b x y, hb' x y hx hy, hk x y _ hx hy (hb' x y hx hy), fun i hi => e3 x y i hx hy hi⟩⟩

theorem forLevels_at {n k : Nat} {f : Nat → Res (List UInt8)} {bytes : List UInt8} (hb : forLevels n f = .ok bytes)
    (hk : ∀ i b, i < n → f i = .ok b → b.length = k) :
    bytes.length = n * k ∧ ∀ l, l < n → ∃ b, f l = .ok b ∧ b.length = k ∧ ∀ i, i < k → bytes[l * k + i]? = b[i]? := by
  have he : ∀ i, i < n → ∃ b, f i = .ok b := fun i hi => foldl_each hb i (List.mem_range.mpr hi)
  choose! b hb' using he
  obtain ⟨bytes', e1, e2, e3⟩ := forLevels_layout (k := k) b hb' fun i hi => hk i _ hi (hb' i hi)
  rw [hb] at e1
  cases e1
  exact ⟨e2, fun l hl => ⟨b l, hb' l hl, hk l _ hl (hb' l hl), fun i hi => e3 l i hl hi⟩⟩

/-- What the bytes of a file are. -/
def Bytes (bytes : List UInt8) (ni nj k : Nat) (v : Nat → Nat → Nat → UInt8) : Prop :=
  bytes.length = ni * nj * k ∧ ∀ x y j, x < ni → y < nj → j < k → bytes[(y * ni + x) * k + j]? = some (v x y j)

theorem temp_explicit {T : LatLonValueGrid Fl} {ni nj : Nat} {t : Nat → Nat → Option Fl} (hT : Filled T ni nj)
    (ht : ∀ x y, x < ni → y < nj → cell T ni x y = t x y) {bytes : List UInt8} (hb : tempBin ⟨T⟩ = .ok bytes) :
    Bytes bytes ni nj 1 fun x y _ => tempByte (t x y) := by
  unfold tempBin at hb
  simp only [hT.dims'] at hb
  have he : ∀ x y, x < ni → y < nj → ((⟨T⟩ : TempLayer).getTempByXY x y).bind (fun t => .ok [tempByte t]) =
      .ok [tempByte (t x y)] := by
    intro x y hx hy
    unfold TempLayer.getTempByXY
    rw [hT.get hx hy, ht x y hx hy]
    rfl
  obtain ⟨h1, h2⟩ := forCells_at (k := 1) hb fun x y b hx hy h => by rw [he x y hx hy] at h; cases h; rfl
  refine ⟨h1, fun x y j hx hy hj => ?_⟩
  obtain ⟨b, b1, _, b3⟩ := h2 x y hx hy
  rw [he x y hx hy] at b1
  cases b1
  rw [b3 j hj]
  obtain rfl : j = 0 := by omega
  rfl

theorem precip_explicit {C P0 P1 : LatLonValueGrid Fl} {ni nj : Nat} {p0 p1 : Nat → Nat → Option Fl} (hC : Filled C ni nj)
    (h0 : Filled P0 ni nj) (h1 : Filled P1 ni nj) (e0 : ∀ x y, x < ni → y < nj → cell P0 ni x y = p0 x y)
    (e1 : ∀ x y, x < ni → y < nj → cell P1 ni x y = p1 x y) {bytes : List UInt8} (hb : precipBin ⟨C, P0, P1⟩ = .ok bytes) :
    Bytes bytes ni nj 1 fun x y _ => precipByte (some (.fin 0, Fl.sub f32 (unwrapOr (p1 x y) (.fin 0)) (unwrapOr (p0 x y) (.fin 0)))) := by
  obtain ⟨bytes', b1, b2, b3⟩ := precip_formula (l := ⟨C, P0, P1⟩) hC h0 h1
  rw [hb] at b1
  cases b1
  refine ⟨by rw [b2, Nat.mul_one], fun x y j hx hy hj => ?_⟩
  obtain rfl : j = 0 := by omega
  rw [Nat.mul_one, Nat.add_zero, b3 x y hx hy]
  simp only [e0 x y hx hy, e1 x y hx hy]
  rfl

theorem wind_explicit {U V G : LatLonValueGrid Fl} {ni nj : Nat} {u v g : Nat → Nat → Option Fl} (hU : Filled U ni nj)
    (hV : Filled V ni nj) (hG : Filled G ni nj) (eu : ∀ x y, x < ni → y < nj → cell U ni x y = u x y)
    (ev : ∀ x y, x < ni → y < nj → cell V ni x y = v x y) (eg : ∀ x y, x < ni → y < nj → cell G ni x y = g x y)
    {bytes : List UInt8} (hb : windBin ⟨U, V, some G⟩ = .ok bytes) :
    Bytes bytes ni nj 3 fun x y j => (windBytes (bothOf (u x y) (v x y)) (g x y)).getD j 0 := by
  have he : ∀ x y, x < ni → y < nj → (((⟨U, V, some G⟩ : WindLayer).getWindByXY x y).bind fun w =>
      ((⟨U, V, some G⟩ : WindLayer).getGustsByXY x y).bind fun g => .ok (windBytes w g)) =
      .ok (windBytes (bothOf (u x y) (v x y)) (g x y)) := by
    intro x y hx hy
    unfold WindLayer.getWindByXY WindLayer.getGustsByXY
    simp only [hU.get hx hy, hV.get hx hy, hG.get hx hy, eu x y hx hy, ev x y hx hy, eg x y hx hy]
    rfl
  have hlen : ∀ a b, (windBytes a b).length = 3 := by intro a b; unfold windBytes; split <;> rfl
  unfold windBin WindLayer.dims at hb
  simp only [hU.dims'] at hb
  obtain ⟨h1, h2⟩ := forCells_at (k := 3) hb fun x y b hx hy h => by rw [he x y hx hy] at h; cases h; exact hlen _ _
  refine ⟨h1, fun x y j hx hy hj => ?_⟩
  obtain ⟨b, b1, _, b3⟩ := h2 x y hx hy
  rw [he x y hx hy] at b1
  cases b1
  rw [b3 j hj]
  show _ = some ((windBytes (bothOf (u x y) (v x y)) (g x y)).getD j 0)
  rw [List.getD_eq_getElem?_getD, List.getElem?_eq_getElem (by rw [hlen]; exact hj)]
  rfl

theorem weather_explicit {C E W : LatLonValueGrid Fl} {ni nj : Nat} {c e w : Nat → Nat → Option Fl} (hC : Filled C ni nj)
    (hE : Filled E ni nj) (hW : Filled W ni nj) (ec : ∀ x y, x < ni → y < nj → cell C ni x y = c x y)
    (ee : ∀ x y, x < ni → y < nj → cell E ni x y = e x y) (ew : ∀ x y, x < ni → y < nj → cell W ni x y = w x y)
    {bytes : List UInt8} (hb : weatherBin ⟨C, E, some W⟩ = .ok bytes) :
    Bytes bytes ni nj 2 fun x y j => if j = 0 then wwByte (meant (w x y)) (c x y) else ceilingByte (e x y) := by
  have he : ∀ x y b, x < ni → y < nj → (((⟨C, E, some W⟩ : WeatherLayer).getWwByXY x y).bind fun ww =>
      (C.getValueByXY x y).bind fun clct => (E.getValueByXY x y).bind fun c => .ok [wwByte ww clct, ceilingByte c]) = .ok b →
      b = [wwByte (meant (w x y)) (c x y), ceilingByte (e x y)] := by
    intro x y b hx hy h
    unfold WeatherLayer.getWwByXY at h
    simp only [hC.get hx hy, hE.get hx hy, hW.get hx hy, ec x y hx hy, ee x y hx hy, ew x y hx hy] at h
    change Res.bind (WeatherLayer.interpret (w x y)) _ = _ at h
    obtain ⟨i, h1, h2⟩ := bind_ok' h
    unfold meant
    rw [h1]
    exact (Res.ok.inj h2).symm
  unfold weatherBin WeatherLayer.dims at hb
  simp only [hC.dims'] at hb
  obtain ⟨h1, h2⟩ := forCells_at (k := 2) hb fun x y b hx hy h => by rw [he x y b hx hy h]; rfl
  refine ⟨h1, fun x y j hx hy hj => ?_⟩
  obtain ⟨b, b1, _, b3⟩ := h2 x y hx hy
  rw [b3 j hj, he x y b hx hy b1]
  rcases j with _ | _ | j
  · rfl
  · rfl
  · omega

/-- The grids of the levels and their cells. -/
structure Levels (gs : List (LatLonValueGrid UInt8)) (n ni nj : Nat) (c : Nat → Nat → Nat → Option UInt8) : Prop where
  count : gs.length = n
  each : ∀ k, k < n → ∃ G, gs[k]? = some G ∧ Filled G ni nj ∧ ∀ x y, x < ni → y < nj → cell G ni x y = c k x y

theorem Levels.filled {gs : List (LatLonValueGrid UInt8)} {n ni nj : Nat} {c : Nat → Nat → Nat → Option UInt8}
    (h : Levels gs n ni nj c) : ∀ g ∈ gs, Filled g ni nj := by
  intro g hg
  obtain ⟨k, hk⟩ := List.mem_iff_getElem?.mp hg
  have hlt : k < n := by
    rw [← h.count]
    by_contra hge
    rw [List.getElem?_eq_none (by omega)] at hk
    cases hk
  obtain ⟨G, h1, h2, _⟩ := h.each k hlt
  rw [hk] at h1
  cases h1
  exact h2

theorem split_index {k n i j : Nat} : (i * n + j / k) * k + j % k = i * (n * k) + j := by
  have := Nat.div_add_mod j k
  calc (i * n + j / k) * k + j % k = i * (n * k) + (k * (j / k) + j % k) := by ring
    _ = _ := by rw [this]

theorem clouds_explicit {H C : List (LatLonValueGrid UInt8)} {n ni nj : Nat} {h c : Nat → Nat → Nat → Option UInt8}
    (hn : 0 < n) (hH : Levels H n ni nj h) (hC : Levels C n ni nj c) {bytes : List UInt8}
    (hb : verticalCloudBin ⟨H, C⟩ = .ok bytes) :
    Bytes bytes ni nj (n * 2) fun x y j => if j % 2 = 0 then (h (j / 2) x y).getD 255 else (c (j / 2) x y).getD 255 := by
  obtain ⟨bytes', b1, b2, b3⟩ := C42_clouds (l := ⟨H, C⟩) hn hH.count hC.count hH.filled hC.filled
  rw [hb] at b1
  cases b1
  refine ⟨b2, fun x y j hx hy hj => ?_⟩
  obtain ⟨gh, h1, _, h2⟩ := hH.each (j / 2) (by omega)
  obtain ⟨gc, c1, _, c2⟩ := hC.each (j / 2) (by omega)
  obtain ⟨z1, z2⟩ := b3 x y (j / 2) gh gc hx hy h1 c1
  rw [h2 x y hx hy] at z1
  rw [c2 x y hx hy] at z2
  rw [← split_index (k := 2)]
  rcases Nat.mod_two_eq_zero_or_one j with hj2 | hj2
  · simpa only [hj2, if_true, Nat.add_zero] using z1
  · simpa only [hj2, one_ne_zero, if_false] using z2

theorem winds_explicit {H U V : List (LatLonValueGrid UInt8)} {n ni nj : Nat} {h u v : Nat → Nat → Nat → Option UInt8}
    (hn : 0 < n) (hH : Levels H n ni nj h) (hU : Levels U n ni nj u) (hV : Levels V n ni nj v) {bytes : List UInt8}
    (hb : verticalWindBin ⟨H, U, V⟩ = .ok bytes) :
    Bytes bytes ni nj (n * 3) fun x y j => if j % 3 = 0 then (h (j / 3) x y).getD 255
      else (uvBytes (bothOf (u (j / 3) x y) (v (j / 3) x y))).getD (j % 3 - 1) 0 := by
  obtain ⟨bytes', b1, b2, b3⟩ := C42_wind (l := ⟨H, U, V⟩) hn hH.count hU.count hV.count hH.filled hU.filled hV.filled
  rw [hb] at b1
  cases b1
  refine ⟨b2, fun x y j hx hy hj => ?_⟩
  obtain ⟨gh, h1, _, h2⟩ := hH.each (j / 3) (by omega)
  obtain ⟨gu, u1, _, u2⟩ := hU.each (j / 3) (by omega)
  obtain ⟨gv, v1, _, v2⟩ := hV.each (j / 3) (by omega)
  obtain ⟨z1, z2, z3⟩ := b3 x y (j / 3) gh gu gv hx hy h1 u1 v1
  rw [h2 x y hx hy] at z1
  rw [u2 x y hx hy, v2 x y hx hy] at z2 z3
  rw [← split_index (k := 3)]
  have h3 : j % 3 = 0 ∨ j % 3 = 1 ∨ j % 3 = 2 := by omega
  have hcomp : bytes[((y * ni + x) * n + j / 3) * 3 + 1]? =
      some ((uvBytes (bothOf (u (j / 3) x y) (v (j / 3) x y))).getD 0 0) ∧
      bytes[((y * ni + x) * n + j / 3) * 3 + 2]? =
      some ((uvBytes (bothOf (u (j / 3) x y) (v (j / 3) x y))).getD 1 0) := by
    cases hu : u (j / 3) x y with
    | none => exact z3 (.inl hu)
    | some a =>
      cases hv : v (j / 3) x y with
      | none => exact z3 (.inr hv)
      | some b => exact z2 a b hu hv
  rcases h3 with hj3 | hj3 | hj3
  · simpa only [hj3, if_true, Nat.add_zero] using z1
  · simpa [hj3] using hcomp.1
  · simpa [hj3] using hcomp.2

/-! ## The bytes of the files of a run -/

theorem levels_of_packed {w : World} {run : Run} (hm : IsDwd run.model) {r : Nat → Req} {msgs : Req → Msg} {ni nj : Nat}
    {a b : Nat} (hp : ∀ k, a ≤ k → k ≤ b → Publishes w run (r k) (msgs (r k)) ∧ Field (msgs (r k)) ni nj) {missing : UInt8}
    {f : Fl → UInt8} {gs : List (LatLonValueGrid UInt8)}
    (h : Res.mapM (fun k => Res.bind (fileUrl run (r k)) fun url => w.readRectangular url missing f) (rangeIncl a b)
      = .ok gs) :
    Levels gs (b + 1 - a) ni nj fun k x y => kept missing f (unpacked (msgs (r (a + k))) (y * ni + x)) := by
  rw [Res.mapM_ok_iff] at h
  have hlen : gs.length = b + 1 - a := by rw [← h.length_eq]; simp [rangeIncl]
  refine ⟨hlen, fun k hk => ?_⟩
  have hlt : k < gs.length := by omega
  have hlt' : k < (rangeIncl a b).length := by rw [h.length_eq]; exact hlt
  have e1 := List.getElem?_eq_getElem hlt'
  rw [rangeIncl_get (by omega)] at e1
  have := List.Forall₂.get h hlt' hlt
  simp only [List.get_eq_getElem, ← Option.some.inj e1] at this
  obtain ⟨p, q⟩ := hp (a + k) (by omega) (by omega)
  exact ⟨gs[k], List.getElem?_eq_getElem hlt, cell_of_packed hm p q (byte_eq _) this⟩

/-- The bytes of a file of a DWD run. -/
theorem dwd_bytes (m : Libm) (w : World) (dirs : Text → Bool) (vars : List Text) (filter : List Nat) (run : Run)
    (hm : IsDwd run.model) (hn : '/' ∉ run.name) (tr : List Write)
    (h : Dwd.renderRun m w dirs vars filter run tr .done) (b : BinType) (hv : ChosenVar vars (Output.bin b).variable)
    (s : RunStep) (hs : s ∈ run.model.forecastSteps) (hc : Chosen filter s) (msgs : Req → Msg) (ni nj : Nat)
    (hp : ∀ r, Uses run.model (Output.bin b).variable s.nr r → Publishes w run r (msgs r) ∧ Field (msgs r) ni nj) :
    ∃ bytes, (∀ before : Tree, before.write tr (binPath run s.nr b) = some (.bytes bytes)) ∧
      Bytes bytes ni nj (width (run.model.verticalLevels.2 + 1 - run.model.verticalLevels.1) b) fun x y j =>
        byteOf run.model.verticalLevels.1 s.nr (fun r => unpacked (msgs r) (y * ni + x)) b j := by
  obtain ⟨l, hl, hd, hfile⟩ := bin_of_run hn h hv (by cases b <;> simp [Output.variable]) hs hc
  have one : ∀ (v : SingleVar) (n : Nat) (G : LatLonValueGrid Fl), dwdGrid w run v n = .ok G →
      Uses run.model (Output.bin b).variable s.nr (.single v n) → Filled G ni nj ∧ ∀ x y, x < ni → y < nj →
        cell G ni x y = num (unpacked (msgs (.single v n)) (y * ni + x)) := by
    intro v n G hG hu
    obtain ⟨p, q⟩ := hp _ hu
    exact cell_of_packed hm p q num_eq hG
  have hle : run.model.verticalLevels.1 ≤ run.model.verticalLevels.2 := by
    rcases hm with e | e <;> rw [e] <;> decide
  cases b with
  | temp2m =>
    simp only [dwdLayers, Output.variable, Res.bind_eq_ok, Res.ok.injEq] at hl
    obtain ⟨G, hG, rfl⟩ := hl
    obtain ⟨_, bytes, hb⟩ := hd
    obtain ⟨f1, f2⟩ := one _ _ _ hG rfl
    exact ⟨bytes, fun before => hfile before (.bin .temp2m) _ (.temp hb), temp_explicit f1 f2 hb⟩
  | precip =>
    simp only [dwdLayers, Output.variable, Res.bind_eq_ok, Res.ok.injEq] at hl
    obtain ⟨C, hC, P0, hP0, P1, hP1, L, hL, _, _, _, _, _, _, W, _, rfl⟩ := hl
    obtain rfl := cloudPrecip_new hL
    obtain ⟨_, ⟨bytes, hb⟩, _⟩ := hd
    obtain ⟨f1, f2⟩ := one _ _ _ hC (by simp [Uses, Output.variable])
    obtain ⟨g1, g2⟩ := one _ _ _ hP0 (by simp [Uses, Output.variable])
    obtain ⟨k1, k2⟩ := one _ _ _ hP1 (by simp [Uses, Output.variable])
    exact ⟨bytes, fun before => hfile before (.bin .precip) _ (.precip hb), precip_explicit f1 g1 k1 g2 k2 hb⟩
  | weather =>
    simp only [dwdLayers, Output.variable, Res.bind_eq_ok, Res.ok.injEq] at hl
    obtain ⟨_, _, _, _, _, _, L, hL, C, hC, E, hE, W, hW, L', hL', rfl⟩ := hl
    obtain rfl := weather_new hL'
    obtain ⟨_, _, bytes, hb⟩ := hd
    obtain ⟨f1, f2⟩ := one _ _ _ hC (by simp [Uses, Output.variable])
    obtain ⟨g1, g2⟩ := one _ _ _ hE (by simp [Uses, Output.variable])
    obtain ⟨k1, k2⟩ := one _ _ _ hW (by simp [Uses, Output.variable])
    exact ⟨bytes, fun before => hfile before (.bin .weather) _ (.weather hb), weather_explicit f1 g1 k1 f2 g2 k2 hb⟩
  | wind10m =>
    simp only [dwdLayers, Output.variable, Res.bind_eq_ok, Res.ok.injEq] at hl
    obtain ⟨U, hU, V, hV, G, hG, L, hL, rfl⟩ := hl
    obtain rfl := wind_new hL
    obtain ⟨_, bytes, hb⟩ := hd
    obtain ⟨f1, f2⟩ := one _ _ _ hU (by simp [Uses, Output.variable])
    obtain ⟨g1, g2⟩ := one _ _ _ hV (by simp [Uses, Output.variable])
    obtain ⟨k1, k2⟩ := one _ _ _ hG (by simp [Uses, Output.variable])
    exact ⟨bytes, fun before => hfile before (.bin .wind10m) _ (.wind hb), wind_explicit f1 g1 k1 f2 g2 k2 hb⟩
  | verticalClouds =>
    simp only [dwdLayers, Output.variable, Res.bind_eq_ok, Res.ok.injEq] at hl
    obtain ⟨H, hH, C, hC, L, hL, rfl⟩ := hl
    obtain rfl := verticalCloud_new hL
    obtain ⟨bytes, hb⟩ := hd
    refine ⟨bytes, fun before => hfile before (.bin .verticalClouds) _ (.verticalCloud hb), ?_⟩
    exact clouds_explicit (by omega)
      (levels_of_packed (r := fun k => .hhl k) (msgs := msgs) hm (fun k h1 h2 => hp _ ⟨k, h1, h2, .inl rfl⟩) hH)
      (levels_of_packed (r := fun k => .level .clc s.nr k) (msgs := msgs) hm (fun k h1 h2 => hp _ ⟨k, h1, h2, .inr rfl⟩) hC) hb
  | verticalWind =>
    simp only [dwdLayers, Output.variable, Res.bind_eq_ok, Res.ok.injEq] at hl
    obtain ⟨H, hH, U, hU, V, hV, L, hL, rfl⟩ := hl
    obtain rfl := verticalWind_new hL
    obtain ⟨bytes, hb⟩ := hd
    refine ⟨bytes, fun before => hfile before (.bin .verticalWind) _ (.verticalWind hb), ?_⟩
    exact winds_explicit (by omega)
      (levels_of_packed (r := fun k => .hhl k) (msgs := msgs) hm (fun k h1 h2 => hp _ ⟨k, h1, h2, .inl rfl⟩) hH)
      (levels_of_packed (r := fun k => .level .u s.nr k) (msgs := msgs) hm
        (fun k h1 h2 => hp _ ⟨k, h1, h2, .inr (.inl rfl)⟩) hU)
      (levels_of_packed (r := fun k => .level .v s.nr k) (msgs := msgs) hm
        (fun k h1 h2 => hp _ ⟨k, h1, h2, .inr (.inr rfl)⟩) hV) hb

/-- **C171, DWD.**  Two successful calls for the same DWD model, on any days, with any options that select the step and
variable and with any environments.  Both leave the file of the step, with the same number of bytes for each grid point;
and the two files agree in a byte of a point if the few published fields on which this byte depends agree at this one
point, whatever the fields hold at other points and whatever other fields hold. -/
theorem C171_dwd (e e' : Environment) (model : FcModel) (hd : IsDwd model) (name name' : Text)
    (hn : Newest e.available model e.today name) (hn' : Newest e'.available model e'.today name')
    (vars vars' : List Text) (filter filter' : List Nat) (tr tr' : List Write)
    (h : mainEffect e (dwdName model) vars filter tr .done) (h' : mainEffect e' (dwdName model) vars' filter' tr' .done)
    (b : BinType) (hv : ChosenVar vars (Output.bin b).variable) (hv' : ChosenVar vars' (Output.bin b).variable)
    (s : RunStep) (hs : s ∈ model.forecastSteps) (hc : Chosen filter s) (hc' : Chosen filter' s)
    (msgs msgs' : Req → Msg) (ni nj : Nat)
    (hp : ∀ r, Uses model (Output.bin b).variable s.nr r →
      Publishes e.world ⟨model, e.today, name⟩ r (msgs r) ∧ Field (msgs r) ni nj)
    (hp' : ∀ r, Uses model (Output.bin b).variable s.nr r →
      Publishes e'.world ⟨model, e'.today, name'⟩ r (msgs' r) ∧ Field (msgs' r) ni nj) (before before' : Tree) :
    ∃ bytes bytes' k, before.write tr (binPath ⟨model, e.today, name⟩ s.nr b) = some (.bytes bytes) ∧
      before'.write tr' (binPath ⟨model, e'.today, name'⟩ s.nr b) = some (.bytes bytes') ∧
      k = width (model.verticalLevels.2 + 1 - model.verticalLevels.1) b ∧
      bytes.length = ni * nj * k ∧ bytes'.length = ni * nj * k ∧
      ∀ x y j, x < ni → y < nj → j < k →
        (∀ r ∈ sources model.verticalLevels.1 s.nr b j, SameAt (msgs r) (msgs' r) (y * ni + x)) →
        bytes[(y * ni + x) * k + j]? = bytes'[(y * ni + x) * k + j]? := by
  rw [C154_run e model hd name hn] at h
  rw [C154_run e' model hd name' hn'] at h'
  obtain ⟨bytes, f1, l1, g1⟩ := dwd_bytes e.libm e.world e.dirs vars filter ⟨model, e.today, name⟩ hd
    (newestName_no_slash hn.1) tr h b hv s hs hc msgs ni nj hp
  obtain ⟨bytes', f2, l2, g2⟩ := dwd_bytes e'.libm e'.world e'.dirs vars' filter' ⟨model, e'.today, name'⟩ hd
    (newestName_no_slash hn'.1) tr' h' b hv' s hs hc' msgs' ni nj hp'
  refine ⟨bytes, bytes', _, f1 before, f2 before', rfl, l1, l2, fun x y j hx hy hj hsame => ?_⟩
  rw [g1 x y j hx hy hj, g2 x y j hx hy hj]
  exact congrArg some (byteOf_sources fun r hr => (hsame r hr).unpacked)

/-! ## The hypotheses can be met -/

/-- A total of 2 mm at the first point like `wetMsg`, and more at the others. -/
def otherMsg : Msg := fieldMsg ⟨false, 0, 0⟩ [] [2, 5, 7, 9]

theorem otherMsg_ok : otherMsg.ok := fieldMsg_ok ⟨by decide, by decide⟩ (by decide) (by decide) (by decide)

theorem otherMsg_field : Field otherMsg 2 2 := fieldMsg_field (r := 0) (by decide +kernel) (by norm_num) (by decide)

theorem otherMsg_area : FullArea otherMsg demoArea 2 2 :=
  ⟨otherMsg_field, by rintro g ⟨⟩; exact ⟨rfl, rfl, rfl, rfl⟩, .inl rfl, by decide⟩

/-- `rainWorld` with the other total in hour 4. -/
def otherWorld : World :=
  ⟨fun url => some (encode (if fileUrl rainRun (.single .totPrec 4) = .ok url then otherMsg else weatherMsg)), fun _ => none, id⟩

theorem other_publishes (r : Req) :
    Publishes otherWorld rainRun r (if r = .single .totPrec 4 then otherMsg else weatherMsg) := by
  obtain ⟨url, hu, _, _⟩ := C52_download rain_usual.1 r
  by_cases hr : r = .single .totPrec 4
  · rw [if_pos hr]
    rw [hr] at hu ⊢
    exact ⟨otherMsg_ok, .inl trivial, url, encode otherMsg, [], hu, by simp only [otherWorld, hu, if_true],
      (List.append_nil _).symm⟩
  · rw [if_neg hr]
    refine ⟨weatherMsg_ok, .inl trivial, url, encode weatherMsg, [], hu, ?_, (List.append_nil _).symm⟩
    have hne : fileUrl rainRun (.single .totPrec 4) ≠ .ok url := fun h =>
      hr (C52_injective rain_usual rain_usual r _ hu h).2
    simp only [otherWorld, if_neg hne]

theorem rain_publishes (r : Req) :
    Publishes rainWorld rainRun r (if r = .single .totPrec 4 then wetMsg else weatherMsg) := by
  by_cases hr : r = .single .totPrec 4
  · rw [if_pos hr, hr]; exact rain_wet
  · rw [if_neg hr]; exact rain_other hr

theorem other_area (r : Req) : AreaPublished otherWorld rainRun demoArea 2 2 r := by
  have := other_publishes r
  by_cases hr : r = .single .totPrec 4
  · rw [if_pos hr] at this
    exact ⟨otherMsg, this, otherMsg_area, by rintro n ⟨⟩; cases hr⟩
  · rw [if_neg hr] at this
    exact ⟨weatherMsg, this, weatherMsg_area, fun _ _ => weatherMsg_codes⟩

attribute [local irreducible] mainEffect

/-- Two calls for totals that agree at the first point only: the precipitation files of hour 4 agree in the first byte. -/
example (service : Swiss.Service) (cal : Swiss.Calendar) (dirs : Text → Bool) (before : Tree) :
    ∃ (m : Libm) (tr tr' : List Write) (bytes bytes' : List UInt8),
    mainEffect ⟨m, rainWorld, service, cal, dirs, ⟨2025, 8, 5⟩, ⟨2025, 8, 5⟩, fun _ => true⟩ "icon-eu".toList [] [] tr .done ∧
    mainEffect ⟨m, otherWorld, service, cal, dirs, ⟨2025, 8, 5⟩, ⟨2025, 8, 5⟩, fun _ => true⟩ "icon-eu".toList [] [] tr' .done ∧
    before.write tr (binPath rainRun 4 .precip) = some (.bytes bytes) ∧
    before.write tr' (binPath rainRun 4 .precip) = some (.bytes bytes') ∧ bytes.length = 4 ∧ bytes[0]? = bytes'[0]? := by
  obtain ⟨m, _, hm⟩ := exists_both
  have hn : Newest (fun _ => true) .iconEu ⟨2025, 8, 5⟩ "21".toList := by
    refine ⟨by decide +kernel, ?_, ?_⟩
    · intro r hr
      obtain ⟨url, hu, -⟩ := C52_download (run := ⟨.iconEu, ⟨2025, 8, 5⟩, "21".toList⟩) (.inr rfl) r
      exact ⟨url, hu, rfl⟩
    · have : ∀ n ∈ runNames, ¬ valueOf "21".toList < valueOf n := by decide +kernel
      exact fun n hn h => absurd h (this n hn)
  obtain ⟨tr, h⟩ := (C105_main ⟨m, rainWorld, service, cal, dirs, ⟨2025, 8, 5⟩, ⟨2025, 8, 5⟩, fun _ => true⟩ hm
    [] [] .iconEu (.inr rfl) "21".toList hn demoArea demoArea_valid 2 2 (fun _ _ _ _ _ r _ => rain_area r)
    fun _ k _ _ => rain_area _).1
  obtain ⟨tr', h'⟩ := (C105_main ⟨m, otherWorld, service, cal, dirs, ⟨2025, 8, 5⟩, ⟨2025, 8, 5⟩, fun _ => true⟩ hm
    [] [] .iconEu (.inr rfl) "21".toList hn demoArea demoArea_valid 2 2 (fun _ _ _ _ _ r _ => other_area r)
    fun _ k _ _ => other_area _).1
  obtain ⟨bytes, bytes', k, f1, f2, rfl, l1, l2, same⟩ := C171_dwd
    ⟨m, rainWorld, service, cal, dirs, ⟨2025, 8, 5⟩, ⟨2025, 8, 5⟩, fun _ => true⟩
    ⟨m, otherWorld, service, cal, dirs, ⟨2025, 8, 5⟩, ⟨2025, 8, 5⟩, fun _ => true⟩ .iconEu (.inr rfl) "21".toList "21".toList
    hn hn [] [] [] [] tr tr' h h' .precip (.inl rfl) (.inl rfl) ⟨4, []⟩ (by decide +kernel) (.inl rfl) (.inl rfl)
    (fun r => if r = .single .totPrec 4 then wetMsg else weatherMsg)
    (fun r => if r = .single .totPrec 4 then otherMsg else weatherMsg) 2 2
    (fun r _ => ⟨rain_publishes r, by split <;> [exact wetMsg_field; exact weatherMsg_field]⟩)
    (fun r _ => ⟨other_publishes r, by split <;> [exact otherMsg_field; exact weatherMsg_field]⟩) before before
  refine ⟨m, tr, tr', bytes, bytes', h, h', f1, f2, l1, ?_⟩
  refine same 0 0 0 (by decide) (by decide) (by decide) fun r hr => ?_
  simp only [sources, List.mem_cons, List.not_mem_nil, or_false] at hr
  rcases hr with rfl | rfl
  · exact ⟨rfl, rfl, fun _ => rfl⟩
  · exact ⟨rfl, by decide, fun _ => by decide⟩

end Verif.Props
