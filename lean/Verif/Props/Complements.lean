import Verif.Props.Geo
import Verif.Props.NetCdf
import Verif.Props.Decode
import Verif.Props.Metobin
import Verif.Props.Swiss

/-!
# Complements to C10, C20, C30, C37, C38, C67 and C80

What the code does in the cases in which these properties fail, for all inputs instead of one example, and which cell a
position is looked up in.
-/

namespace Verif.Props

open Verif
open Verif.Spec (Filled cell)

/-! ## C20: the cell of a position -/

/-- **C20**: at a position inside the extent whose fractional coordinates are not negative, the lookup gives exactly what
the cell holds whose column and row are nearest to these coordinates: its value unless it is the missing value, and
nothing if this is no cell of the grid. -/
theorem C20_nearest_cell {T : Type} [GridValue T] (g : LatLonValueGrid T) (w h : Nat) (hd : g.grid.dimensions = (w, h))
    (hs : w * h ≤ 2 ^ 64) (hv : g.values.length = w * h) (lat lon s w' n e fx fy : Rat)
    (he : g.grid.extent = ⟨⟨.fin s, .fin w'⟩, ⟨.fin n, .fin e⟩⟩)
    (h1 : s ≤ lat) (h2 : lat < n) (h3 : w' ≤ lon) (h4 : lon < e)
    (hx : Fl.div f32 (Fl.sub f32 (.fin lon) (.fin w')) g.grid.lonInc = .fin fx)
    (hy : Fl.div f32 (Fl.sub f32 (.fin lat) (.fin s)) g.grid.latInc = .fin fy)
    (hx0 : 0 ≤ fx) (hy0 : 0 ≤ fy) (hx1 : fx ≤ 2 ^ 63) (hy1 : fy ≤ 2 ^ 63) :
    ∃ x y : Nat, |(x : Rat) - fx| ≤ 1 / 2 ∧ |(y : Rat) - fy| ≤ 1 / 2 ∧
      (x < w ∧ y < h → ∃ v, g.values[y * w + x]? = some v ∧
        g.getValueByLatLon ⟨.fin lat, .fin lon⟩ = .ok (if GridValue.eq v g.missingValue then none else some v)) ∧
      (¬ (x < w ∧ y < h) → g.getValueByLatLon ⟨.fin lat, .fin lon⟩ = .ok none) := by
  have hin : g.grid.extent.isInside ⟨.fin lat, .fin lon⟩ = true := by
    rw [he]
    exact (C16_half_open s n w' e lat lon).2 ⟨⟨h1, h2⟩, h3, h4⟩
  have hxy : g.grid.getXYByLatLon ⟨.fin lat, .fin lon⟩ = some (.fin fx, .fin fy) := by
    unfold LatLonGrid.getXYByLatLon
    rw [hin, he]
    simp only [Bool.not_true, Bool.false_eq_true, if_false, hx, hy]
  have hg : g.getValueByLatLon ⟨.fin lat, .fin lon⟩ =
      g.getValueByXY (Fl.toUSize (Fl.round (.fin fx))) (Fl.toUSize (Fl.round (.fin fy))) := by
    unfold LatLonValueGrid.getValueByLatLon
    rw [hxy]
  rw [hg]
  exact ⟨_, _, C20_rounding fx hx0 hx1, C20_rounding fy hy0 hy1, C19_lookup g w h hd hs hv _ _⟩

example : ∃ x y : Nat, |(x : Rat) - rndq f32 (11 / 5)| ≤ 1 / 2 ∧ |(y : Rat) - 0| ≤ 1 / 2 ∧
    (x < 3 ∧ y < 2 → ∃ v, demoValues.values[y * 3 + x]? = some v ∧
      demoValues.getValueByLatLon ⟨.fin 40, .fin (36 / 5)⟩ =
        .ok (if GridValue.eq v demoValues.missingValue then none else some v)) := by
  have hx : Fl.div f32 (Fl.sub f32 (.fin (36 / 5)) (.fin 5)) demoValues.grid.lonInc = .fin (rndq f32 (11 / 5)) := by
    decide +kernel
  obtain ⟨x, y, a, b, c, -⟩ := C20_nearest_cell demoValues 3 2 rfl (by norm_num) rfl 40 (36 / 5) 40 5 42 8 _ 0 rfl
    (by norm_num) (by norm_num) (by norm_num) (by norm_num) hx (by decide +kernel) (by decide +kernel) (by norm_num)
    (by decide +kernel) (by norm_num)
  exact ⟨x, y, a, b, c⟩

/-! ## C67: lists without elements -/

section

open Verif.NetCdf Verif.Rd
open Verif.Spec.Grib2 (be)
open Verif.Spec.NetCdf (encodeList encodeDim encodeAttr encodeVar encodeName)

/-- The first bytes of a header: "CDF", version 2 and the number of records. -/
def headerStart (numRecs : Nat) : List UInt8 := [0x43, 0x44, 0x46] ++ be 1 2 ++ be 4 numRecs

/-- A list written with its tag and zero elements. -/
def emptyWithTag (tag : Nat) : List UInt8 := be 4 tag ++ be 4 0

theorem readList_empty {α : Type} {tag : Nat} (h0 : 0 < tag) (h1 : tag < 2 ^ 32) (item : Rd α) (r : List UInt8) :
    readList tag item (emptyWithTag tag ++ r) = .err := by
  unfold readList emptyWithTag
  rw [List.append_assoc, u32_bind (by omega), u32_bind (by norm_num), if_neg (by omega), if_neg (by omega)]
  rfl

theorem readHeader_start {u : Rd ValueType} {n : Nat} (h : n < 2 ^ 32) (r : List UInt8) :
    readHeaderWith u (headerStart n ++ r) = (do
      let dimList ← readDimList
      let attList ← readAttrList u
      let varList ← readVarList u
      pure (⟨⟨[0x43, 0x44, 0x46], 2⟩, n, dimList, attList, varList⟩ : Header) : Rd Header) r := by
  unfold readHeaderWith headerStart
  rw [List.append_assoc, List.append_assoc]
  have hm : ∀ r, readMagic ([0x43, 0x44, 0x46] ++ (be 1 2 ++ r)) = .ok (⟨[0x43, 0x44, 0x46], 2⟩, r) := by
    intro r
    unfold readMagic
    have : readNChars 3 ([0x43, 0x44, 0x46] ++ (be 1 2 ++ r)) = .ok ([0x43, 0x44, 0x46], be 1 2 ++ r) := by
      unfold readNChars
      rw [bytes_bind (n := 3) [0x43, 0x44, 0x46] rfl, if_pos (by decide)]
      rfl
    rw [bind_of_ok this, u8_bind (by norm_num)]
    rfl
  rw [bind_of_ok (hm _), u32_bind h]

theorem times_err {α ι : Type} {m : Rd α} (enc : ι → List UInt8) (dec : ι → α) (bad : List UInt8) (hb : m bad = .err) :
    ∀ (is : List ι) (n : Nat), is.length < n → (∀ i ∈ is, ∀ r, m (enc i ++ r) = .ok (dec i, r)) →
      times m n (is.flatMap enc ++ bad) = .err := by
  intro is
  induction is with
  | nil =>
    intro n hn _
    obtain ⟨k, rfl⟩ : ∃ k, n = k + 1 := ⟨n - 1, by simp at hn; omega⟩
    rw [times]
    exact bind_of_err hb
  | cons i is ih =>
    intro n hn h
    obtain ⟨k, rfl⟩ : ∃ k, n = k + 1 := ⟨n - 1, by simp at hn; omega⟩
    rw [times, List.flatMap_cons, List.append_assoc, bind_of_ok (h i (by simp) _),
      bind_of_err (ih k (by simp at hn; omega) fun j hj => h j (by simp [hj]))]

theorem times_panic {α ι : Type} {m : Rd α} (enc : ι → List UInt8) (dec : ι → α) (bad : List UInt8)
    (hb : m bad = .panic) : ∀ (is : List ι) (n : Nat), is.length < n → (∀ i ∈ is, ∀ r, m (enc i ++ r) = .ok (dec i, r)) →
      times m n (is.flatMap enc ++ bad) = .panic := by
  intro is
  induction is with
  | nil =>
    intro n hn _
    obtain ⟨k, rfl⟩ : ∃ k, n = k + 1 := ⟨n - 1, by simp at hn; omega⟩
    rw [times]
    exact bind_of_panic hb
  | cons i is ih =>
    intro n hn h
    obtain ⟨k, rfl⟩ : ∃ k, n = k + 1 := ⟨n - 1, by simp at hn; omega⟩
    rw [times, List.flatMap_cons, List.append_assoc, bind_of_ok (h i (by simp) _),
      bind_of_panic (ih k (by simp at hn; omega) fun j hj => h j (by simp [hj]))]

/-- **C67, the opposite always holds.**  A header in which a list is written with its tag and zero elements is rejected,
whatever stands before and after: the list of dimensions, the list of global attributes, the list of variables, and the
list of the attributes of any variable. -/
theorem C67_always (h : Spec.NetCdf.Header) (hk : h.ok) (rest : List UInt8) :
    readHeader (headerStart h.numRecs ++ (emptyWithTag 10 ++ rest)) = .err ∧
    readHeader (headerStart h.numRecs ++ (encodeList 10 encodeDim h.dims ++ (emptyWithTag 12 ++ rest))) = .err ∧
    readHeader (headerStart h.numRecs ++ (encodeList 10 encodeDim h.dims ++
      (encodeList 12 encodeAttr h.attributes ++ (emptyWithTag 11 ++ rest)))) = .err ∧
    (∀ pre v post, h.vars = pre ++ v :: post →
      readHeader (headerStart h.numRecs ++ (encodeList 10 encodeDim h.dims ++
        (encodeList 12 encodeAttr h.attributes ++ (be 4 11 ++ (be 4 h.vars.length ++ (pre.flatMap encodeVar ++
          (encodeName v.name ++ (be 4 v.dimIds.length ++ (v.dimIds.flatMap (be 4) ++ (emptyWithTag 12 ++ rest)))))))))) =
        .err) := by
  obtain ⟨h1, h2, h3, h4, h5, h6, h7⟩ := hk
  have hd : ∀ r, readDimList (encodeList 10 encodeDim h.dims ++ r) = .ok (h.dims.map dimOf, r) :=
    readList_ok (by norm_num) (by norm_num) encodeDim dimOf h.dims h2 (fun d hd r => readDim_ok (h3 d hd) r)
  unfold readHeader
  refine ⟨?_, ?_, ?_, ?_⟩
  · rw [readHeader_start h1]
    exact bind_of_err (readList_empty (by norm_num) (by norm_num) _ _)
  · rw [readHeader_start h1, bind_of_ok (hd _)]
    exact bind_of_err (readList_empty (by norm_num) (by norm_num) _ _)
  · rw [readHeader_start h1, bind_of_ok (hd _), bind_of_ok (readAttrList_ok h4 h5 _)]
    exact bind_of_err (readList_empty (by norm_num) (by norm_num) _ _)
  · intro pre v post hvars
    have hv := h7 v (by simp [hvars])
    obtain ⟨v1, v2, v3, -⟩ := hv
    rw [readHeader_start h1, bind_of_ok (hd _), bind_of_ok (readAttrList_ok h4 h5 _)]
    refine bind_of_err ?_
    have hl : 0 < h.vars.length := by simp [hvars]
    unfold readVarList readList
    rw [u32_bind (by norm_num), u32_bind (by omega), if_neg (by omega), if_pos ⟨rfl, hl⟩]
    refine times_err encodeVar varOf _ ?_ pre _ (by simp [hvars])
      (fun i hi r => readVar_ok (h7 i (by simp [hvars, hi])) r)
    unfold readVar
    have ht := times_flatMap (m := u32) (be 4) id v.dimIds (fun d hd r' => uint_be (k := 4) (v3 d hd) r')
    rw [List.map_id] at ht
    rw [bind_of_ok (readName_name v1 _), u32_bind v2, bind_of_ok (ht _)]
    exact bind_of_err (readList_empty (by norm_num) (by norm_num) _ _)

/-- **C30, wherever the type stands.**  A header whose list of global attributes holds, after any well-formed attributes, one
with a type number other than 1 to 6, crashes the reader, whatever follows. -/
theorem C30_always (h : Spec.NetCdf.Header) (hk : h.ok) (pre : List Spec.NetCdf.Attr) (n : Nat) (hn : pre.length < n)
    (hn' : n < 2 ^ 32) (hp : ∀ a ∈ pre, a.ok) (name : List Char) (hname : Spec.NetCdf.Name.ok name) (ty : Nat)
    (hty : ty < 2 ^ 32) (hbad : ty < 1 ∨ 6 < ty) (rest : List UInt8) :
    readHeader (headerStart h.numRecs ++ (encodeList 10 encodeDim h.dims ++ (be 4 12 ++ (be 4 n ++
      (pre.flatMap encodeAttr ++ (encodeName name ++ (be 4 ty ++ rest))))))) = .panic := by
  obtain ⟨h1, h2, h3, -⟩ := hk
  have hd : ∀ r, readDimList (encodeList 10 encodeDim h.dims ++ r) = .ok (h.dims.map dimOf, r) :=
    readList_ok (by norm_num) (by norm_num) encodeDim dimOf h.dims h2 (fun d hd r => readDim_ok (h3 d hd) r)
  unfold readHeader
  rw [readHeader_start h1, bind_of_ok (hd _)]
  refine bind_of_panic ?_
  unfold readAttrList readList
  rw [u32_bind (by norm_num), u32_bind hn', if_neg (by omega), if_pos ⟨rfl, by omega⟩]
  refine times_panic encodeAttr attrOf _ ?_ pre _ hn (fun i hi r => readAttr_ok (hp i hi) r)
  unfold readAttr
  rw [bind_of_ok (readName_name hname _)]
  refine bind_of_panic ?_
  unfold readValueType
  rw [u32_bind hty, if_neg (by omega), if_neg (by omega), if_neg (by omega), if_neg (by omega), if_neg (by omega),
    if_neg (by omega)]
  rfl

example : readHeader (headerStart 0 ++ (encodeList 10 encodeDim demoHeader.dims ++ (be 4 12 ++ (be 4 2 ++
    (demoHeader.attributes.flatMap encodeAttr ++ (encodeName ['x'] ++ (be 4 7 ++ []))))))) = .panic :=
  C30_always demoHeader demoHeader_ok demoHeader.attributes 2 (by decide) (by norm_num) demoHeader_ok.2.2.2.2.1 ['x']
    (by decide) 7 (by norm_num) (by norm_num) []

/-- The second variable of the example file, which has no attributes, written with an empty list of them. -/
example : readHeader (headerStart 0 ++ (encodeList 10 encodeDim demoHeader.dims ++
    (encodeList 12 encodeAttr demoHeader.attributes ++ (be 4 11 ++ (be 4 2 ++ ((demoHeader.vars.take 1).flatMap encodeVar ++
      (encodeName ['c', 'l', 'o', 'n'] ++ (be 4 1 ++ ([0].flatMap (be 4) ++ (emptyWithTag 12 ++ [1, 2, 3])))))))))) = .err :=
  (C67_always demoHeader demoHeader_ok [1, 2, 3]).2.2.2 (demoHeader.vars.take 1) ⟨['c', 'l', 'o', 'n'], [0], [], 6, 16, 200⟩ [] rfl

end

/-! ## C10: the number of bits per value -/

/-- **C10, for every width.**  Whatever number of bits per value a message declares, its values are taken from the data
two bytes each. -/
theorem C10_always (m : Spec.Grib2.Msg) (h : m.ok) (hk : m.product.known ∨ m.coordinates = []) (rest : List UInt8) :
    ∃ doc, Grib2.readSingleDoc (Spec.Grib2.encode m ++ rest) = .ok (doc, rest) ∧
      doc.section7.dataPoints = Spec.Decode.unpackBits 16 (payload m) := by
  refine ⟨m.doc, C01_round_trip m h hk rest, ?_⟩
  have hd : ∀ v ∈ m.data, v < 2 ^ 16 := by
    obtain ⟨-, -, -, -, -, -, -, -, -, -, -, -, -, -, -, -, -, -, -, -, -, -, -, -, -, -, -, hd, -⟩ := h
    exact hd
  exact (unpackBits_be m.data hd).symm

/-- The message with 8 bits per value. -/
example : ∃ doc, Grib2.readSingleDoc (Spec.Grib2.encode msg8 ++ []) = .ok (doc, []) ∧
    doc.section7.dataPoints = Spec.Decode.unpackBits 16 (payload msg8) := C10_always msg8 msg8_ok (Or.inl trivial) []

/-! ## C37: temperatures outside of the range -/

/-- **C37, outside of the range.**  Every temperature of 337 K (63.85 degrees Celsius) and more is written as 255, like a
missing one, and every temperature of 209 K (-64.15 degrees Celsius) and less as 0. -/
theorem C37_outside {l : TempLayer} {w h : Nat} (hl : Filled l.temp w h) :
    ∃ bytes, Metobin.tempBin l = .ok bytes ∧ ∀ x y, x < w → y < h → ∀ t, cell l.temp w x y = some t →
      (Fl.le (.fin 337) t = true → bytes[y * w + x]? = some 255) ∧
      (Fl.le t (.fin 209) = true → bytes[y * w + x]? = some 0) := by
  obtain ⟨bytes, h1, -, h3⟩ := Metobin.forCells_layout (w := w) (h := h) (k := 1)
    (f := fun x y => (l.getTempByXY x y).bind fun t => .ok [Metobin.tempByte t])
    (fun x y => [Metobin.tempByte (cell l.temp w x y)])
    (fun x y hx hy => by unfold TempLayer.getTempByXY; rw [hl.get hx hy]; rfl) (fun _ _ _ _ => rfl)
  refine ⟨bytes, by unfold Metobin.tempBin; rw [hl.dims']; exact h1, ?_⟩
  intro x y hx hy t ht
  have hb := h3 x y 0 hx hy (by norm_num)
  rw [Nat.mul_one, Nat.add_zero, ht] at hb
  have hb : bytes[y * w + x]? = some (Metobin.tempByte (some t)) := hb
  constructor
  · intro hle
    have := C37_monotone hle
    rw [show Metobin.tempByte (some (.fin 337)) = 255 by decide +kernel] at this
    rw [hb, Option.some.injEq]
    exact UInt8.le_antisymm (by
      rw [UInt8.le_iff_toNat_le]
      exact Nat.le_of_lt_succ (Metobin.tempByte (some t)).toNat_lt) this
  · intro hle
    have := C37_monotone hle
    rw [show Metobin.tempByte (some (.fin 209)) = 0 by decide +kernel] at this
    rw [hb, Option.some.injEq]
    exact UInt8.le_antisymm this (by rw [UInt8.le_iff_toNat_le]; exact Nat.zero_le _)

example : Metobin.tempBin ⟨rowGrid [.pinf, .fin 340, .fin 200, .ninf] (.fin (-1))⟩ = .ok [255, 255, 0, 0] := by
  decide +kernel

/-! ## C38: missing totals -/

/-- **C38, missing values.**  Missing totals count as zero: where the earlier total is missing the byte is that of the whole
later total, where the later total is missing (and the earlier one is not negative) it is 0.  Every amount of 128 mm
and more is written as 255. -/
theorem C38_missing {l : CloudPrecipLayer} {w h : Nat} (hc : Filled l.cloud w h) (h0 : Filled l.precip0 w h)
    (h1 : Filled l.precip1 w h) :
    ∃ bytes, Metobin.precipBin l = .ok bytes ∧ ∀ x y, x < w → y < h →
      (cell l.precip0 w x y = none → ∀ p : Rat, cell l.precip1 w x y = some (.fin p) → IsFl f32 (.fin p) →
        bytes[y * w + x]? = some (Metobin.precipByte (some (.fin 0, .fin p)))) ∧
      (cell l.precip1 w x y = none → (∀ p, cell l.precip0 w x y = some p → Fl.le (.fin 0) p = true) →
        bytes[y * w + x]? = some 0) ∧
      (∀ p0 p1, cell l.precip0 w x y = some p0 → cell l.precip1 w x y = some p1 →
        Fl.le (.fin 128) (Fl.sub f32 p1 p0) = true → bytes[y * w + x]? = some 255) := by
  obtain ⟨bytes, g1, -, g3⟩ := Metobin.forCells_layout (w := w) (h := h) (k := 1)
    (f := fun x y => (l.getCloudAndPrecipByXY x y).bind fun v => .ok [Metobin.precipByte v])
    (fun x y => [Metobin.precipByte (some (unwrapOr (cell l.cloud w x y) (.fin 0),
      Fl.sub f32 (unwrapOr (cell l.precip1 w x y) (.fin 0)) (unwrapOr (cell l.precip0 w x y) (.fin 0))))])
    (fun x y hx hy => by
      unfold CloudPrecipLayer.getCloudAndPrecipByXY
      rw [hc.get hx hy, h0.get hx hy, h1.get hx hy]; rfl) (fun _ _ _ _ => rfl)
  refine ⟨bytes, by unfold Metobin.precipBin CloudPrecipLayer.dims; rw [hc.dims']; exact g1, ?_⟩
  intro x y hx hy
  have hb := g3 x y 0 hx hy (by norm_num)
  rw [Nat.mul_one, Nat.add_zero] at hb
  have hb : bytes[y * w + x]? = some (Metobin.precipByte (some (unwrapOr (cell l.cloud w x y) (.fin 0),
      Fl.sub f32 (unwrapOr (cell l.precip1 w x y) (.fin 0)) (unwrapOr (cell l.precip0 w x y) (.fin 0))))) := hb
  have bot : ∀ c d, Fl.le d (.fin 0) = true → Metobin.precipByte (some (c, d)) = 0 := by
    intro c d hle
    have := precipByte_mono (c := c) (d := .fin 0) hle
    rw [show Metobin.precipByte (some (.fin 0, .fin 0)) = 0 by decide +kernel] at this
    exact UInt8.le_antisymm this (by rw [UInt8.le_iff_toNat_le]; exact Nat.zero_le _)
  refine ⟨?_, ?_, ?_⟩
  · intro e0 p e1 hp
    rw [hb, e0, e1]
    have : Fl.sub f32 (.fin p) (.fin 0) = .fin p := by
      rw [Fl.sub_fin, sub_zero]
      exact isFl_exact prec32 hp
    show some (Metobin.precipByte (some (_, Fl.sub f32 (.fin p) (.fin 0)))) = _
    rw [this]
    rfl
  · intro e1 e0
    rw [hb, e1, Option.some.injEq]
    refine bot _ _ ?_
    have zero : ∀ q : Rat, 0 ≤ q → Fl.le (Fl.sub f32 (.fin 0) (.fin q)) (.fin 0) = true := by
      intro q hq
      rw [Fl.sub_fin]
      exact Fl.rnd_le_fin prec32 ⟨rep_zero _, by decide +kernel⟩ (by linarith)
    cases hq : cell l.precip0 w x y with
    | none => exact zero 0 le_rfl
    | some p =>
      have hp := e0 p hq
      cases p with
      | fin q => exact zero q (by simpa using hp)
      | pinf => rfl
      | ninf => cases hp
      | nan => cases hp
  · intro p0 p1 e0 e1 hle
    rw [hb, e0, e1, Option.some.injEq]
    have := precipByte_mono (c := .fin 0) (d := unwrapOr (cell l.cloud w x y) (.fin 0)) hle
    rw [show Metobin.precipByte (some (.fin 0, .fin 128)) = 255 by decide +kernel] at this
    exact UInt8.le_antisymm (by
      rw [UInt8.le_iff_toNat_le]
      have := (Metobin.precipByte (some (unwrapOr (cell l.cloud w x y) (.fin 0), Fl.sub f32 p1 p0))).toNat_lt
      show _ ≤ 255
      exact Nat.le_of_lt_succ this) this

/-- Six hours of rain, 30 mm in all, the earlier total of the last hour being lost: all 30 mm are shown for this hour. -/
example : Metobin.precipBin ⟨rowGrid [.fin 1, .fin 1] (.fin (-1)), rowGrid [.fin (-1), .fin 30] (.fin (-1)),
    rowGrid [.fin 30, .fin (-1)] (.fin (-1))⟩ = .ok [60, 0] := by decide +kernel

/-! ## C80: offsets -/

/-- **C80, exactly**: an accepted reference time has a run name if and only if the offset of its text is a multiple of three
hours, or less than an hour west of one. -/
theorem C80_iff (t : OffsetTime) (ht : t.loc.Valid) (r : Instant) (h : RefTime.fromParsed (.ok t) = .ok r) :
    (∃ name, RefTime.runName r = .ok name) ↔ (-t.offset) % 10800 < 3600 := by
  obtain ⟨h1, h2⟩ := ht
  unfold RefTime.fromParsed at h
  simp only [Res.bind_ok] at h
  split at h
  · cases h
  · rename_i hc
    simp only [Res.ok.injEq] at h
    subst h
    simp only [not_or, not_not, Instant.minute, Instant.second, Instant.hour] at hc
    have hs : t.loc.sec % 10800 = 0 := by omega
    have key : (t.toUtc.sec / 3600 % 3 = 0 ↔ (-t.offset) % 10800 < 3600) ∧ t.toUtc.sec < 86400 := by
      unfold OffsetTime.toUtc
      simp only
      omega
    rw [← key.1]
    unfold RefTime.runName Instant.hour
    have hq : t.toUtc.sec / 3600 < 24 := by omega
    generalize t.toUtc.sec / 3600 = q at hq ⊢
    clear hs hc key
    have hq : q ∈ List.range 24 := List.mem_range.mpr hq
    fin_cases hq <;> simp

/-- 9:00 half an hour west of Greenwich is 9:30 UTC and taken for the run of 9 UTC; 9:00 half an hour east is refused. -/
example : RefTime.fromParsed (.ok ⟨⟨20000, 9 * 3600, 0⟩, -1800⟩) = .ok ⟨20000, 9 * 3600 + 1800, 0⟩ ∧
    RefTime.runName ⟨20000, 9 * 3600 + 1800, 0⟩ = .ok "09".toList ∧
    RefTime.fromParsed (.ok ⟨⟨20000, 9 * 3600, 0⟩, 1800⟩) = .ok ⟨20000, 8 * 3600 + 1800, 0⟩ ∧
    RefTime.runName ⟨20000, 8 * 3600 + 1800, 0⟩ = .err := by decide +kernel

end Verif.Props
