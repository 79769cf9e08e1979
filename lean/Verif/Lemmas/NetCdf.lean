import Verif.Model.NetCdf
import Verif.Spec.NetCdf
import Verif.Lemmas.Bytes

/-!
# Lemmas about the NetCDF readers
-/

namespace Verif

open Spec.Grib2 (be F32Word)
open Spec.NetCdf (F64Word)

theorem f64OfBits_bits (w : F64Word) (h : w.ok) : f64OfBits w.bits = w.value := by
  obtain ⟨he, hf⟩ := h
  have hs : w.bits / 2 ^ 63 % 2 = if w.sign then 1 else 0 := by
    unfold F64Word.bits; split <;> omega
  have hx : w.bits / 2 ^ 52 % 2 ^ 11 = w.exponent := by
    unfold F64Word.bits; split <;> omega
  have hm : w.bits % 2 ^ 52 = w.fraction := by
    unfold F64Word.bits; split <;> omega
  unfold f64OfBits F64Word.value
  simp only [hs, hx, hm]
  have hs1 : ((if w.sign = true then 1 else 0) = 1) ↔ w.sign = true := by cases w.sign <;> simp
  simp only [hs1]
  have hv : (if w.exponent = 0 then (w.fraction : Rat) * pow2 (-1074)
      else ((w.fraction + 2 ^ 52 : Nat) : Rat) * pow2 ((w.exponent : Int) - 1075)) =
      (if w.exponent = 0 then (2 : Rat) ^ (-1022 : Int) * (w.fraction / 2 ^ 52)
      else (2 : Rat) ^ ((w.exponent : Int) - 1023) * (1 + w.fraction / 2 ^ 52)) := by
    split
    · rw [pow2_eq, show (-1074 : Int) = -1022 - 52 by norm_num, zpow_sub₀ (by norm_num)]
      rw [show (2 : Rat) ^ (52 : Int) = 2 ^ 52 by norm_cast]
      ring
    · rw [pow2_eq, show (w.exponent : Int) - 1075 = ((w.exponent : Int) - 1023) - 52 by ring,
        zpow_sub₀ (by norm_num)]
      rw [show (2 : Rat) ^ (52 : Int) = 2 ^ 52 by norm_cast]
      push_cast
      field_simp
      ring
  rw [hv]

namespace NetCdf

open Rd Spec.NetCdf

/-! ## UTF-8 -/

theorem utf8Run_char (c : Char) (r : List UInt8) :
    utf8Run .start (String.utf8EncodeChar c ++ r) = utf8Run .start r := by
  have hv : c.val.toNat < 0xD800 ∨ (0xDFFF < c.val.toNat ∧ c.val.toNat < 0x110000) := c.valid
  unfold String.utf8EncodeChar
  simp only
  generalize c.val.toNat = v at hv
  have t : ∀ n : Nat, n < 256 → (UInt8.ofNat n).toNat = n := by
    intro n hn; rw [UInt8.toNat_ofNat']; omega
  have k1 := t (v % 64 + 128) (by omega)
  have k2 := t (v / 64 % 64 + 128) (by omega)
  have k3 := t (v / 4096 % 64 + 128) (by omega)
  split
  · have k0 := t v (by omega)
    simp only [List.cons_append, List.nil_append, utf8Run, utf8Step, k0]
    rw [if_pos (by omega)]
  · split
    · have k0 := t (v / 64 % 32 + 192) (by omega)
      simp only [List.cons_append, List.nil_append, utf8Run, utf8Step, k0]
      rw [if_neg (by omega), if_pos (by omega)]
      simp only [k1]
      rw [if_pos (by omega)]
    · split
      · have k0 := t (v / 4096 % 16 + 224) (by omega)
        simp only [List.cons_append, List.nil_append, utf8Run, utf8Step, k0]
        rw [if_neg (by omega), if_neg (by omega)]
        by_cases h0 : v / 4096 % 16 = 0
        · rw [if_pos (by omega)]
          simp only [k2, k1]
          rw [if_pos (by omega)]
          simp only
          rw [if_pos (by omega)]
        · rw [if_neg (by omega)]
          by_cases h1 : v / 4096 % 16 = 13
          · rw [if_pos (by omega)]
            simp only [k2, k1]
            rw [if_pos (by omega)]
            simp only
            rw [if_pos (by omega)]
          · rw [if_neg (by omega), if_pos (by omega)]
            simp only [k2, k1]
            rw [if_pos (by omega)]
            simp only
            rw [if_pos (by omega)]
      · have k0 := t (v / 262144 % 8 + 240) (by omega)
        simp only [List.cons_append, List.nil_append, utf8Run, utf8Step, k0]
        rw [if_neg (by omega), if_neg (by omega), if_neg (by omega), if_neg (by omega), if_neg (by omega)]
        by_cases h0 : v / 262144 % 8 = 0
        · rw [if_pos (by omega)]
          simp only [k3, k2, k1]
          rw [if_pos (by omega)]
          simp only
          rw [if_pos (by omega)]
          simp only
          rw [if_pos (by omega)]
        · rw [if_neg (by omega)]
          by_cases h1 : v / 262144 % 8 = 4
          · rw [if_neg (by omega), if_pos (by omega)]
            simp only [k3, k2, k1]
            rw [if_pos (by omega)]
            simp only
            rw [if_pos (by omega)]
            simp only
            rw [if_pos (by omega)]
          · rw [if_pos (by omega)]
            simp only [k3, k2, k1]
            rw [if_pos (by omega)]
            simp only
            rw [if_pos (by omega)]
            simp only
            rw [if_pos (by omega)]

theorem utf8Run_name (name : List Char) : utf8Run .start (utf8 name) = true := by
  induction name with
  | nil => rfl
  | cons c cs ih =>
    unfold utf8 at ih ⊢
    rw [List.flatMap_cons, utf8Run_char, ih]

/-! ## Reading back encodings -/

theorem readPadding_any (len size : Nat) (s : List UInt8) :
    readPadding len size s = .ok ((), s.drop ((4 - len * size % 4) % 4)) := by
  unfold readPadding
  split
  · rename_i h
    rw [show (4 - len * size % 4) % 4 = 4 - len * size % 4 by omega]
    rfl
  · rename_i h
    rw [show (4 - len * size % 4) % 4 = 0 by omega]
    rfl

theorem readPadding_fill (len size : Nat) {pad : List UInt8} (hp : pad.length = (4 - len * size % 4) % 4)
    (r : List UInt8) : readPadding len size (pad ++ r) = .ok ((), r) := by
  rw [readPadding_any, List.drop_left' hp]

theorem readPadding_padding (len size : Nat) (r : List UInt8) :
    readPadding len size (padding (len * size) ++ r) = .ok ((), r) :=
  readPadding_fill len size (by simp [padding]) r

theorem readNChars_name (name : List Char) (r : List UInt8) :
    readNChars (utf8 name).length (utf8 name ++ r) = .ok (utf8 name, r) := by
  unfold readNChars
  rw [bytes_bind _ rfl, if_pos (utf8Run_name name)]
  rfl

theorem readName_name {name : List Char} (h : Name.ok name) (r : List UInt8) :
    readName (encodeName name ++ r) = .ok (utf8 name, r) := by
  unfold readName encodeName
  rw [List.append_assoc, List.append_assoc, u32_bind (by exact h), bind_of_ok (readNChars_name name _)]
  have := readPadding_padding (utf8 name).length 1 r
  rw [Nat.mul_one] at this
  rw [bind_of_ok this]
  rfl

/-- The kind of values. -/
def typeOfNumber (n : Nat) : ValueType :=
  if n = 1 then .ncByte else if n = 2 then .ncChar else if n = 3 then .ncShort
  else if n = 4 then .ncInt else if n = 5 then .ncFloat else .ncDouble

/-- The values a reader should deliver. -/
def decoded : Data → Values
  | .byte v => .bytes v
  | .char v => .chars v
  | .short v => .shorts v
  | .int v => .ints v
  | .float v => .floats (v.map (·.value))
  | .double v => .doubles (v.map (·.value))

theorem readValueType_ok {u : Rd ValueType} {n : Nat} (h1 : 1 ≤ n) (h6 : n ≤ 6) (r : List UInt8) :
    readValueType u (be 4 n ++ r) = .ok (typeOfNumber n, r) := by
  unfold readValueType typeOfNumber
  rw [u32_bind (by omega)]
  have : n = 1 ∨ n = 2 ∨ n = 3 ∨ n = 4 ∨ n = 5 ∨ n = 6 := by omega
  rcases this with rfl | rfl | rfl | rfl | rfl | rfl <;> rfl

theorem signed_twos {b : Nat} (hb : 1 ≤ b) {d : Int} (h1 : -2 ^ (b - 1) ≤ d) (h2 : d < 2 ^ (b - 1)) :
    signedOfBits b (d % 2 ^ b).toNat = d := by
  obtain ⟨k, rfl⟩ : ∃ k, b = k + 1 := ⟨b - 1, by omega⟩
  unfold signedOfBits
  simp only [Nat.add_sub_cancel] at *
  have hp : (0 : Int) < 2 ^ k := by positivity
  have e : (2 : Int) ^ (k + 1) = 2 ^ k + 2 ^ k := by ring
  rw [e]
  have e3 : ((2 : Nat) ^ k : Int) = 2 ^ k := by norm_cast
  by_cases hd : 0 ≤ d
  · have hm : d % (2 ^ k + 2 ^ k) = d := Int.emod_eq_of_lt hd (by omega)
    rw [hm]
    have : d.toNat < 2 ^ k := by zify; rw [Int.toNat_of_nonneg hd]; exact h2
    rw [if_pos this, Int.toNat_of_nonneg hd]
  · have hm : d % (2 ^ k + 2 ^ k) = d + (2 ^ k + 2 ^ k) := by
      rw [← Int.add_emod_right, Int.emod_eq_of_lt (by omega) (by omega)]
    rw [hm]
    have : ¬ (d + (2 ^ k + 2 ^ k)).toNat < 2 ^ k := by
      zify; rw [Int.toNat_of_nonneg (by omega)]; omega
    rw [if_neg this, Int.toNat_of_nonneg (by omega)]
    omega

theorem flatMap_be_length {α : Type} (k : Nat) (f : α → Nat) (l : List α) :
    (l.flatMap fun d => be k (f d)).length = l.length * k := by
  induction l with
  | nil => simp
  | cons a l ih => rw [List.flatMap_cons, List.length_append, ih, be_length, List.length_cons]; ring

theorem map_back {α β γ : Type} (f : α → β) (g : β → γ) (k : α → γ) (v : List α)
    (h : ∀ a ∈ v, g (f a) = k a) : (v.map f).map g = v.map k := by
  induction v with
  | nil => rfl
  | cons a v ih =>
    rw [List.map_cons, List.map_cons, List.map_cons, h a (by simp), ih (fun b hb => h b (by simp [hb]))]

/-- Reading values that are followed by anything. -/
theorem readValues_any {d : Data} (h : d.ok) (q : List UInt8) :
    readValues d.count (typeOfNumber d.typeNumber) (d.encode ++ q) =
      .ok (decoded d, q.drop ((4 - d.encode.length % 4) % 4)) := by
  cases d with
  | byte v =>
    simp only [Data.count, Data.typeNumber, Data.encode, decoded]
    rw [show typeOfNumber 1 = .ncByte from rfl, readValues]
    have hp := readPadding_any v.length 1 q
    rw [Nat.mul_one] at hp
    rw [bytes_bind v rfl, bind_of_ok hp]
    rfl
  | char v =>
    simp only [Data.count, Data.typeNumber, Data.encode, decoded]
    rw [show typeOfNumber 2 = .ncChar from rfl, readValues]
    have hp := readPadding_any v.length 1 q
    rw [Nat.mul_one] at hp
    have ht := times_flatMap (m := u8) (fun b : UInt8 => [b]) (fun b => b.toNat) v (by
      intro b _ r'
      have := uint_be (k := 1) (n := b.toNat) b.toNat_lt r'
      have e : be 1 b.toNat = [b] := by simp [be]
      rw [e] at this
      exact this) q
    have e : (v.flatMap fun b => [b]) = v := by simp
    rw [e] at ht
    rw [bind_of_ok ht, bind_of_ok hp]
    have e2 : (v.map fun b => b.toNat).map UInt8.ofNat = v := by
      rw [map_back _ _ id v (fun b _ => by simp), List.map_id]
    rw [e2]
    rfl
  | short v =>
    simp only [Data.count, Data.typeNumber, Data.encode, decoded]
    rw [show typeOfNumber 3 = .ncShort from rfl, readValues]
    have hp := readPadding_any v.length 2 q
    rw [flatMap_be_length]
    have ht := times_flatMap (m := u16) (fun d : Int => be 2 (d % 2 ^ 16).toNat) (fun d => (d % 2 ^ 16).toNat) v (by
      intro d _ r'
      exact uint_be (k := 2) (by omega) r')
    rw [bind_of_ok (ht _), bind_of_ok hp]
    have e2 : (v.map fun d : Int => (d % 2 ^ 16).toNat).map (signedOfBits 16) = v := by
      have e := map_back (fun d : Int => (d % (2 : Int) ^ 16).toNat) (signedOfBits 16) (fun d => d) v
        (fun d hd => signed_twos (b := 16) (by decide) (h d hd).1 (h d hd).2)
      rw [List.map_id'] at e
      exact e
    rw [e2]
    rfl
  | int v =>
    simp only [Data.count, Data.typeNumber, Data.encode, decoded]
    rw [show typeOfNumber 4 = .ncInt from rfl, readValues]
    have ht := times_flatMap (m := u32) (fun d : Int => be 4 (d % 2 ^ 32).toNat) (fun d => (d % 2 ^ 32).toNat) v (by
      intro d _ r'
      exact uint_be (k := 4) (by omega) r')
    have e0 : ∀ n : Nat, (4 - n * 4 % 4) % 4 = 0 := by omega
    rw [flatMap_be_length, e0, bind_of_ok (ht _)]
    have e2 : (v.map fun d : Int => (d % 2 ^ 32).toNat).map (signedOfBits 32) = v := by
      have e := map_back (fun d : Int => (d % (2 : Int) ^ 32).toNat) (signedOfBits 32) (fun d => d) v
        (fun d hd => signed_twos (b := 32) (by decide) (h d hd).1 (h d hd).2)
      rw [List.map_id'] at e
      exact e
    rw [e2]
    rfl
  | float v =>
    simp only [Data.count, Data.typeNumber, Data.encode, decoded]
    rw [show typeOfNumber 5 = .ncFloat from rfl, readValues]
    have hb : ∀ w ∈ v, w.bits < 256 ^ 4 := by
      intro w hw
      obtain ⟨h1, h2⟩ := h w hw
      unfold F32Word.bits
      split <;> omega
    have ht := times_flatMap (m := u32) (fun w : F32Word => be 4 w.bits) (fun w => w.bits) v
      (fun w hw r' => uint_be (k := 4) (hb w hw) r')
    have e0 : ∀ n : Nat, (4 - n * 4 % 4) % 4 = 0 := by omega
    rw [flatMap_be_length, e0, bind_of_ok (ht _)]
    have e2 : (v.map fun w : F32Word => w.bits).map f32OfBits = v.map (·.value) := by
      exact map_back _ _ _ v (fun w hw => f32OfBits_bits w (h w hw))
    rw [e2]
    rfl
  | double v =>
    simp only [Data.count, Data.typeNumber, Data.encode, decoded]
    rw [show typeOfNumber 6 = .ncDouble from rfl, readValues]
    have hb : ∀ w ∈ v, w.bits < 256 ^ 8 := by
      intro w hw
      obtain ⟨h1, h2⟩ := h w hw
      unfold F64Word.bits
      split <;> omega
    have ht := times_flatMap (m := u64) (fun w : F64Word => be 8 w.bits) (fun w => w.bits) v
      (fun w hw r' => uint_be (k := 8) (hb w hw) r')
    have e0 : ∀ n : Nat, (4 - n * 8 % 4) % 4 = 0 := by omega
    rw [flatMap_be_length, e0, bind_of_ok (ht _)]
    have e2 : (v.map fun w : F64Word => w.bits).map f64OfBits = v.map (·.value) := by
      exact map_back _ _ _ v (fun w hw => f64OfBits_bits w (h w hw))
    rw [e2]
    rfl

/-- Reading values that are followed by fill bytes and the rest. -/
theorem readValues_fill {d : Data} (h : d.ok) {pad : List UInt8}
    (hpad : pad.length = (4 - d.encode.length % 4) % 4) (r : List UInt8) :
    readValues d.count (typeOfNumber d.typeNumber) (d.encode ++ pad ++ r) = .ok (decoded d, r) := by
  rw [List.append_assoc, readValues_any h, List.drop_left' hpad]

/-- Reading values that are followed by padding and the rest. -/
theorem readValues_ok {d : Data} (h : d.ok) (r : List UInt8) :
    readValues d.count (typeOfNumber d.typeNumber) (d.encode ++ padding d.encode.length ++ r) =
      .ok (decoded d, r) := readValues_fill h (by simp [padding]) r

/-- A list written by the specification. -/
theorem readList_ok {α β : Type} {tag : Nat} (ht : 0 < tag) (ht2 : tag < 2 ^ 32) {item : Rd β}
    (enc : α → List UInt8) (dec : α → β) (l : List α) (hl : l.length < 2 ^ 32)
    (h : ∀ a ∈ l, ∀ r, item (enc a ++ r) = .ok (dec a, r)) (r : List UInt8) :
    readList tag item (encodeList tag enc l ++ r) = .ok (l.map dec, r) := by
  unfold readList encodeList
  split
  · rename_i h0
    rw [List.append_assoc, u32_bind (by norm_num), u32_bind (by norm_num), if_pos ⟨rfl, rfl⟩]
    have : l = [] := List.length_eq_zero_iff.1 h0
    subst this
    rfl
  · rename_i h0
    rw [List.append_assoc, List.append_assoc, u32_bind (by omega), u32_bind (by omega),
      if_neg (by omega), if_pos ⟨rfl, by omega⟩]
    exact times_flatMap enc dec l h r

/-- The parts a reader should deliver. -/
def dimOf (d : Spec.NetCdf.Dim) : Dim := ⟨utf8 d.name, d.length⟩
def attrOf (a : Spec.NetCdf.Attr) : Attr := ⟨utf8 a.name, typeOfNumber a.data.typeNumber, decoded a.data⟩
def varOf (v : Spec.NetCdf.Var) : Var :=
  ⟨utf8 v.name, v.dimIds, v.attributes.map attrOf, typeOfNumber v.type, v.size, v.begin⟩
def headerOf (h : Spec.NetCdf.Header) : Header :=
  ⟨⟨[0x43, 0x44, 0x46], 2⟩, h.numRecs, h.dims.map dimOf, h.attributes.map attrOf, h.vars.map varOf⟩

theorem readDim_ok {d : Spec.NetCdf.Dim} (h : d.ok) (r : List UInt8) :
    readDim (encodeDim d ++ r) = .ok (dimOf d, r) := by
  unfold readDim encodeDim
  rw [List.append_assoc, bind_of_ok (readName_name h.1 _), u32_bind h.2]
  rfl

theorem typeNumber_range (d : Data) : 1 ≤ d.typeNumber ∧ d.typeNumber ≤ 6 := by
  cases d <;> simp [Data.typeNumber]

theorem readAttr_ok {u : Rd ValueType} {a : Spec.NetCdf.Attr} (h : a.ok) (r : List UInt8) :
    readAttr u (encodeAttr a ++ r) = .ok (attrOf a, r) := by
  unfold readAttr encodeAttr
  obtain ⟨h1, h2, h3⟩ := h
  obtain ⟨t1, t2⟩ := typeNumber_range a.data
  simp only [List.append_assoc]
  rw [bind_of_ok (readName_name h1 _), bind_of_ok (readValueType_ok t1 t2 _), u32_bind h3]
  have := readValues_ok h2 r
  rw [List.append_assoc] at this
  rw [bind_of_ok this]
  rfl

theorem readAttrList_ok {u : Rd ValueType} {l : List Spec.NetCdf.Attr} (hl : l.length < 2 ^ 32)
    (h : ∀ a ∈ l, a.ok) (r : List UInt8) :
    readAttrList u (encodeList 12 encodeAttr l ++ r) = .ok (l.map attrOf, r) :=
  readList_ok (by norm_num) (by norm_num) encodeAttr attrOf l hl (fun a ha r => readAttr_ok (h a ha) r) r

theorem readVar_ok {u : Rd ValueType} {v : Spec.NetCdf.Var} (h : v.ok) (r : List UInt8) :
    readVar u (encodeVar v ++ r) = .ok (varOf v, r) := by
  unfold readVar encodeVar
  obtain ⟨h1, h2, h3, h4, h5, h6, h7, h8, h9⟩ := h
  simp only [List.append_assoc]
  have ht := times_flatMap (m := u32) (be 4) id v.dimIds (fun d hd r' => uint_be (k := 4) (h3 d hd) r')
  rw [List.map_id] at ht
  rw [bind_of_ok (readName_name h1 _), u32_bind h2, bind_of_ok (ht _), bind_of_ok (readAttrList_ok h4 h5 _),
    bind_of_ok (readValueType_ok h6 h7 _), u32_bind h8, u64_bind h9]
  rfl

theorem readHeader_ok {u : Rd ValueType} {h : Spec.NetCdf.Header} (hk : h.ok) (r : List UInt8) :
    readHeaderWith u (encodeHeader h ++ r) = .ok (headerOf h, r) := by
  unfold readHeaderWith encodeHeader
  obtain ⟨h1, h2, h3, h4, h5, h6, h7⟩ := hk
  rw [List.append_assoc, List.append_assoc, List.append_assoc, List.append_assoc, List.append_assoc]
  have hm : ∀ r, readMagic ([0x43, 0x44, 0x46] ++ (be 1 2 ++ r)) = .ok (⟨[0x43, 0x44, 0x46], 2⟩, r) := by
    intro r
    unfold readMagic
    have : readNChars 3 ([0x43, 0x44, 0x46] ++ (be 1 2 ++ r)) = .ok ([0x43, 0x44, 0x46], be 1 2 ++ r) := by
      unfold readNChars
      rw [bytes_bind (n := 3) [0x43, 0x44, 0x46] rfl, if_pos (by decide)]
      rfl
    rw [bind_of_ok this, u8_bind (by norm_num)]
    rfl
  have hd : ∀ r, readDimList (encodeList 10 encodeDim h.dims ++ r) = .ok (h.dims.map dimOf, r) :=
    readList_ok (by norm_num) (by norm_num) encodeDim dimOf h.dims h2 (fun d hd r => readDim_ok (h3 d hd) r)
  have hv : ∀ r, readVarList u (encodeList 11 encodeVar h.vars ++ r) = .ok (h.vars.map varOf, r) :=
    readList_ok (by norm_num) (by norm_num) encodeVar varOf h.vars h6 (fun v hv r => readVar_ok (h7 v hv) r)
  rw [bind_of_ok (hm _), u32_bind h1, bind_of_ok (hd _), bind_of_ok (readAttrList_ok h4 h5 _),
    bind_of_ok (hv _)]
  rfl

end NetCdf
end Verif
