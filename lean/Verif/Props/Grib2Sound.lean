import Verif.Lemmas.Grib2
import Verif.Lemmas.Split
import Verif.Spec.Grib2File
import Verif.Props.Grib2Read

/-!
# C124: which GRIB2 messages are accepted
-/

namespace Verif.Grib2

open Verif Rd Spec.Grib2 Props

/-- Takes the first step of a successful reading apart. -/
local macro "step" h:ident x:ident r:ident e:ident : tactic =>
  `(tactic| (replace $h := bind_ok_iff.mp $h; obtain ⟨$x, $r, $e, $h⟩ := $h))

/-! ## Codes -/

theorem code_discipline {v : Nat} (h : v < 256) :
    disciplineOk (disciplineOfCode v) ∧ disciplineCode (disciplineOfCode v) = v := by
  unfold disciplineOfCode
  split <;> simp_all [disciplineOk, disciplineCode]

theorem code_significance {v : Nat} (h : v < 256) :
    significanceOk (refTimeSignificanceOfCode v) ∧ significanceCode (refTimeSignificanceOfCode v) = v := by
  unfold refTimeSignificanceOfCode
  split <;> simp_all [significanceOk, significanceCode]

theorem code_status {v : Nat} (h : v < 256) :
    statusOk (productionStatusOfCode v) ∧ statusCode (productionStatusOfCode v) = v := by
  unfold productionStatusOfCode
  split <;> simp_all [statusOk, statusCode]

theorem code_dataType {v : Nat} (h : v < 256) :
    dataTypeOk (processedDataTypeOfCode v) ∧ dataTypeCode (processedDataTypeOfCode v) = v := by
  unfold processedDataTypeOfCode
  split <;> simp_all [dataTypeOk, dataTypeCode]

theorem code_source {v : Nat} (h : v < 256) :
    sourceOk (gridSourceOfCode v) ∧ sourceCode (gridSourceOfCode v) = v := by
  unfold gridSourceOfCode
  split <;> simp_all [sourceOk, sourceCode]

theorem code_interpretation {v : Nat} (h : v < 256) :
    interpretationOk (interpretationOfCode v) ∧ interpretationCode (interpretationOfCode v) = v := by
  unfold interpretationOfCode
  split <;> simp_all [interpretationOk, interpretationCode]

theorem code_shape {v : Nat} (h : v < 256) :
    shapeOk (shapeOfCode v) ∧ shapeCode (shapeOfCode v) = v := by
  unfold shapeOfCode
  split <;> simp_all [shapeOk, shapeCode]

theorem code_category {v : Nat} (h : v < 256) :
    categoryOk (categoryOfCode v) ∧ categoryCode (categoryOfCode v) = v := by
  unfold categoryOfCode
  split <;> simp_all [categoryOk, categoryCode]

theorem code_fieldType {v : Nat} (h : v < 256) :
    fieldTypeOk (fieldTypeOfCode v) ∧ fieldTypeCode (fieldTypeOfCode v) = v := by
  unfold fieldTypeOfCode
  split <;> simp_all [fieldTypeOk, fieldTypeCode]

/-! ## Sections -/

theorem time_split {t : DateTime} {s r : List UInt8} (h : readRefTime s = .ok (t, r)) :
    timeOk t ∧ s = be 2 t.year ++ (be 1 t.month ++ (be 1 t.day ++ (be 1 t.hour ++
      (be 1 t.minute ++ (be 1 t.second ++ r))))) := by
  unfold readRefTime at h
  step h year s1 e1
  step h month s2 e2
  step h day s3 e3
  step h hour s4 e4
  step h minute s5 e5
  step h second s6 e6
  split at h
  · rename_i hv
    obtain ⟨rfl, rfl⟩ := pure_ok h
    have hy := (uint_split e1).1
    obtain ⟨⟨h1, h2, h3, h4⟩, h5⟩ := (validDateTime_iff _).mp hv
    refine ⟨⟨hy, h1, h2, h3, h4, h5⟩, ?_⟩
    rw [(uint_split e1).2, (uint_split e2).2, (uint_split e3).2, (uint_split e4).2, (uint_split e5).2,
      (uint_split e6).2]
  · simp at h

theorem section0_split {a : Section0} {s r : List UInt8} (h : readSection0 s = .ok (a, r)) :
    ∃ (reserved : List UInt8) (discipline : Discipline) (edition totalLength : Nat),
      reserved.length = 2 ∧ disciplineOk discipline ∧ edition < 256 ∧ totalLength < 2 ^ 64 ∧
      a = ⟨discipline, edition, totalLength⟩ ∧
      s = [0x47, 0x52, 0x49, 0x42] ++ reserved ++ be 1 (disciplineCode discipline) ++ be 1 edition
        ++ be 8 totalLength ++ r := by
  unfold readSection0 at h
  simp only [bytesIgnoringError_then_u8] at h
  step h magic s1 e1
  step h reserved s2 e2
  step h discipline s3 e3
  step h edition s4 e4
  step h length s5 e5
  by_cases hm : magic = gribMagic
  · rw [if_neg (by simp [hm])] at h
    obtain ⟨rfl, rfl⟩ := pure_ok h
    obtain ⟨o, c⟩ := code_discipline (uint_split e3).1
    obtain ⟨q1, -⟩ := bytes_ok_iff.mp e1
    obtain ⟨q2, hl⟩ := bytes_ok_iff.mp e2
    refine ⟨reserved, _, _, _, hl, o, (uint_split e4).1, (uint_split e5).1, rfl, ?_⟩
    rw [c, q1, q2, (uint_split e3).2, (uint_split e4).2, (uint_split e5).2, hm]
    simp [gribMagic]
  · rw [if_pos hm] at h
    simp at h

theorem section1_split {a : Section1} {s r : List UInt8} (h : readSection1 s = .ok (a, r)) :
    ∃ (center subcenter masterTable localTable : Nat) (significance : RefTimeSignificance) (time : DateTime)
      (status : ProductionStatus) (dataType : ProcessedDataType) (tail : List UInt8),
      center < 2 ^ 16 ∧ subcenter < 2 ^ 16 ∧ masterTable < 256 ∧ localTable < 256 ∧
      significanceOk significance ∧ timeOk time ∧ statusOk status ∧ dataTypeOk dataType ∧
      21 + tail.length < 2 ^ 32 ∧
      a = ⟨21 + tail.length, center, subcenter, masterTable, localTable, significance, time, status, dataType⟩ ∧
      s = be 4 (21 + tail.length) ++ be 1 1 ++ be 2 center ++ be 2 subcenter
        ++ be 1 masterTable ++ be 1 localTable ++ be 1 (significanceCode significance)
        ++ be 2 time.year ++ be 1 time.month ++ be 1 time.day ++ be 1 time.hour
        ++ be 1 time.minute ++ be 1 time.second
        ++ be 1 (statusCode status) ++ be 1 (dataTypeCode dataType) ++ tail ++ r := by
  unfold readSection1 at h
  step h length s1 e1
  step h number s2 e2
  step h center s3 e3
  step h subcenter s4 e4
  step h master s5 e5
  step h loc s6 e6
  step h sig s7 e7
  step h time s8 e8
  step h status s9 e9
  step h dt s10 e10
  by_cases hn : number = 1
  · rw [if_neg (by simp [hn])] at h
    by_cases hl : length < 21
    · rw [if_pos hl] at h; simp at h
    · rw [if_neg hl] at h
      step h tail s11 e11
      obtain ⟨rfl, rfl⟩ := pure_ok h
      obtain ⟨o1, c1⟩ := code_significance (uint_split e7).1
      obtain ⟨o2, c2⟩ := code_status (uint_split e9).1
      obtain ⟨o3, c3⟩ := code_dataType (uint_split e10).1
      obtain ⟨ot, ct⟩ := time_split e8
      obtain ⟨q, ql⟩ := bytes_ok_iff.mp e11
      have hlen : length = 21 + tail.length := by omega
      have := (uint_split e1).1
      refine ⟨center, subcenter, master, loc, _, time, _, _, tail, (uint_split e3).1, (uint_split e4).1,
        (uint_split e5).1, (uint_split e6).1, o1, ot, o2, o3, by omega, by rw [hlen], ?_⟩
      rw [c1, c2, c3, (uint_split e1).2, (uint_split e2).2, (uint_split e3).2, (uint_split e4).2,
        (uint_split e5).2, (uint_split e6).2, (uint_split e7).2, ct, (uint_split e9).2, (uint_split e10).2, q,
        hlen, hn]
      simp only [List.append_assoc]
  · rw [if_pos hn] at h; simp at h

theorem section2_split {a : Section2} {s r : List UInt8} (h : readSection2 s = .ok (a, r)) :
    ∃ tail : List UInt8, 5 + tail.length < 2 ^ 32 ∧ a = ⟨5 + tail.length⟩ ∧
      s = be 4 (5 + tail.length) ++ be 1 2 ++ tail ++ r := by
  unfold readSection2 at h
  step h length s1 e1
  step h number s2 e2
  by_cases hn : number = 2
  · rw [if_neg (by simp [hn])] at h
    by_cases hl : length < 5
    · rw [if_pos hl] at h; simp at h
    · rw [if_neg hl] at h
      step h tail s11 e11
      obtain ⟨rfl, rfl⟩ := pure_ok h
      obtain ⟨q, ql⟩ := bytes_ok_iff.mp e11
      have hlen : length = 5 + tail.length := by omega
      have := (uint_split e1).1
      refine ⟨tail, by omega, by rw [hlen], ?_⟩
      rw [(uint_split e1).2, (uint_split e2).2, q, hlen, hn]
      simp only [List.append_assoc]
  · rw [if_pos hn] at h; simp at h

theorem scale_split {a : ScaleFactorValue} {s r : List UInt8} (h : readScaleFactorValue s = .ok (a, r)) :
    scaleOk a ∧ s = encScale a ++ r := by
  unfold readScaleFactorValue at h
  step h factor s1 e1
  step h value s2 e2
  obtain ⟨rfl, rfl⟩ := pure_ok h
  refine ⟨⟨(uint_split e1).1, (uint_split e2).1⟩, ?_⟩
  rw [(uint_split e1).2, (uint_split e2).2]
  simp [encScale]

theorem angle_split {a : Fl} {s r : List UInt8} (h : readAngle s = .ok (a, r)) :
    ∃ v, v < 2 ^ 32 ∧ a = angleValue v ∧ s = be 4 v ++ r := by
  unfold readAngle at h
  step h v s1 e1
  obtain ⟨rfl, rfl⟩ := pure_ok h
  exact ⟨v, (uint_split e1).1, angleOfU32_eq (uint_split e1).1, (uint_split e1).2⟩

theorem grid30_split {a : GridTemplate3_0} {s r : List UInt8} (h : readGridTemplate3_0 s = .ok (a, r)) :
    ∃ g : Grid3_0, gridOk (.latLon g) ∧ gridDoc (.latLon g) = .latitudeLongitude a ∧
      be 2 0 ++ s = encGrid (.latLon g) ++ r := by
  unfold readGridTemplate3_0 at h
  step h shape s1 e1
  step h radius s2 e2
  step h major s3 e3
  step h minor s4 e4
  step h ni s5 e5
  step h nj s6 e6
  step h basic s7 e7
  step h subdivision s8 e8
  step h la1 s9 e9
  step h lo1 s10 e10
  step h resolution s11 e11
  step h la2 s12 e12
  step h lo2 s13 e13
  step h di s14 e14
  step h dj s15 e15
  step h scanning s16 e16
  obtain ⟨rfl, rfl⟩ := pure_ok h
  obtain ⟨os, cs⟩ := code_shape (uint_split e1).1
  obtain ⟨k2, q2⟩ := scale_split e2
  obtain ⟨k3, q3⟩ := scale_split e3
  obtain ⟨k4, q4⟩ := scale_split e4
  obtain ⟨v9, k9, rfl, q9⟩ := angle_split e9
  obtain ⟨v10, k10, rfl, q10⟩ := angle_split e10
  obtain ⟨v12, k12, rfl, q12⟩ := angle_split e12
  obtain ⟨v13, k13, rfl, q13⟩ := angle_split e13
  obtain ⟨v14, k14, rfl, q14⟩ := angle_split e14
  obtain ⟨v15, k15, rfl, q15⟩ := angle_split e15
  refine ⟨⟨shapeOfCode shape, radius, major, minor, ni, nj, basic, subdivision, v9, v10, resolution, v12, v13, v14,
    v15, scanning⟩, ⟨os, k2, k3, k4, (uint_split e5).1, (uint_split e6).1, (uint_split e7).1, (uint_split e8).1,
    k9, k10, (uint_split e11).1, k12, k13, k14, k15, (uint_split e16).1⟩, ?_, ?_⟩
  · simp only [gridDoc, resolutionFlagsOfByte, scanningFlagsOfByte, ← clear_and]
    norm_num
  · simp only [encGrid, cs]
    rw [(uint_split e1).2, q2, q3, q4, (uint_split e5).2, (uint_split e6).2, (uint_split e7).2, (uint_split e8).2,
      q9, q10, (uint_split e11).2, q12, q13, q14, q15, (uint_split e16).2]
    simp only [List.append_assoc]

theorem grid_split {a : GridTemplate} {s r : List UInt8} (h : readGridTemplate s = .ok (a, r)) :
    ∃ g : Grid, gridOk g ∧ gridDoc g = a ∧ s = encGrid g ++ r := by
  unfold readGridTemplate at h
  step h n s1 e1
  obtain ⟨hn, q⟩ := uint_split e1
  split at h
  · rename_i h0
    step h t s2 e2
    obtain ⟨rfl, rfl⟩ := pure_ok h
    obtain ⟨g, k, d, e⟩ := grid30_split e2
    exact ⟨.latLon g, k, d, by rw [q, h0, e]⟩
  · split at h
    · rename_i h0
      step h t s2 e2
      obtain ⟨rfl, rfl⟩ := pure_ok h
      unfold readGridTemplate3_101 at e2
      step e2 shape s3 e3
      step e2 number s4 e4
      step e2 inRef s5 e5
      step e2 uuid s6 e6
      obtain ⟨rfl, rfl⟩ := pure_ok e2
      obtain ⟨os, cs⟩ := code_shape (uint_split e3).1
      refine ⟨.unstructured (shapeOfCode shape) number inRef uuid, ⟨os, (uint_split e4).1, (uint_split e5).1,
        (uint_split e6).1⟩, rfl, ?_⟩
      simp only [encGrid, cs]
      rw [q, h0, (uint_split e3).2, (uint_split e4).2, (uint_split e5).2, (uint_split e6).2]
      simp only [List.append_assoc]
    · simp at h

theorem section3_split {a : Section3} {s r : List UInt8} (h : readSection3 s = .ok (a, r)) :
    ∃ (length : Nat) (source : GridDefinitionSource) (points optional : Nat)
      (interpretation : OptionalPointInterpretation) (g : Grid),
      length < 2 ^ 32 ∧ sourceOk source ∧ points < 2 ^ 32 ∧ optional < 256 ∧ interpretationOk interpretation ∧
      gridOk g ∧ a = ⟨length, source, points, optional, interpretation, gridDoc g⟩ ∧
      s = be 4 length ++ be 1 3 ++ be 1 (sourceCode source) ++ be 4 points ++ be 1 optional
        ++ be 1 (interpretationCode interpretation) ++ encGrid g ++ r := by
  unfold readSection3 at h
  step h length s1 e1
  step h number s2 e2
  step h source s3 e3
  step h points s4 e4
  step h optional s5 e5
  step h interp s6 e6
  step h tpl s7 e7
  by_cases hn : number = 3
  · rw [if_neg (by simp [hn])] at h
    obtain ⟨rfl, rfl⟩ := pure_ok h
    obtain ⟨g, hg, rfl, q⟩ := grid_split e7
    obtain ⟨o1, c1⟩ := code_source (uint_split e3).1
    obtain ⟨o2, c2⟩ := code_interpretation (uint_split e6).1
    refine ⟨length, _, points, optional, _, g, (uint_split e1).1, o1, (uint_split e4).1, (uint_split e5).1, o2, hg,
      rfl, ?_⟩
    rw [c1, c2, (uint_split e1).2, (uint_split e2).2, (uint_split e3).2, (uint_split e4).2, (uint_split e5).2,
      (uint_split e6).2, q, hn]
    simp only [List.append_assoc]
  · rw [if_pos hn] at h; simp at h

theorem twos_signed {n : Nat} (h : n < 256) :
    (-128 ≤ signedOfBits 8 n ∧ signedOfBits 8 n < 128) ∧ twosComplement8 (signedOfBits 8 n) = n := by
  obtain ⟨h1, h2, h3⟩ := signed_range (b := 8) (by norm_num) h
  exact ⟨⟨h1, h2⟩, h3⟩

theorem product41_split {t : ProductTemplate4_1} {s r : List UInt8} (h : readProductTemplate4_1 s = .ok (t, r)) :
    productOk (.p4_1 t) ∧ s = encProduct (.p4_1 t) ++ r := by
  unfold readProductTemplate4_1 at h
  step h x1 s1 e1
  step h x2 s2 e2
  step h x3 s3 e3
  step h x4 s4 e4
  step h x5 s5 e5
  step h x6 s6 e6
  step h x7 s7 e7
  step h x8 s8 e8
  step h x9 s9 e9
  step h x10 s10 e10
  step h x11 s11 e11
  step h x12 s12 e12
  step h x13 s13 e13
  step h x14 s14 e14
  step h x15 s15 e15
  step h x16 s16 e16
  step h x17 s17 e17
  step h x18 s18 e18
  obtain ⟨rfl, rfl⟩ := pure_ok h
  obtain ⟨o1, c1⟩ := code_category (uint_split e1).1
  obtain ⟨o11, c11⟩ := twos_signed (uint_split e11).1
  obtain ⟨o14, c14⟩ := twos_signed (uint_split e14).1
  refine ⟨⟨o1, (uint_split e2).1, (uint_split e3).1, (uint_split e4).1, (uint_split e5).1, (uint_split e6).1,
    (uint_split e7).1, (uint_split e8).1, (uint_split e9).1, (uint_split e10).1, o11, (uint_split e12).1,
    (uint_split e13).1, o14, (uint_split e15).1, (uint_split e16).1, (uint_split e17).1, (uint_split e18).1⟩, ?_⟩
  simp only [encProduct, c1, c11, c14]
  rw [(uint_split e1).2, (uint_split e2).2, (uint_split e3).2, (uint_split e4).2, (uint_split e5).2,
    (uint_split e6).2, (uint_split e7).2, (uint_split e8).2, (uint_split e9).2, (uint_split e10).2,
    (uint_split e11).2, (uint_split e12).2, (uint_split e13).2, (uint_split e14).2, (uint_split e15).2,
    (uint_split e16).2, (uint_split e17).2, (uint_split e18).2]
  simp only [List.append_assoc]

theorem product_split {a : ProductTemplate} {n len : Nat} (hn : n < 2 ^ 16) {s r : List UInt8}
    (h : readProductTemplate n len s = .ok (a, r)) :
    ∃ p : Product, productOk p ∧ productNumber p = n ∧ productDoc p = a ∧
      (∀ k c, p = .other k c → c.length = len) ∧ s = encProduct p ++ r := by
  unfold readProductTemplate at h
  split at h
  · rename_i h0
    step h t s1 e1
    obtain ⟨rfl, rfl⟩ := pure_ok h
    unfold readProductTemplate4_0 at e1
    step e1 category s2 e2
    step e1 number s3 e3
    step e1 rest s4 e4
    obtain ⟨rfl, rfl⟩ := pure_ok e1
    obtain ⟨o, c⟩ := code_category (uint_split e2).1
    obtain ⟨q, ql⟩ := bytes_ok_iff.mp e4
    refine ⟨.p4_0 (categoryOfCode category) number rest, ⟨o, (uint_split e3).1, ql⟩, h0.symm, rfl, by simp, ?_⟩
    simp only [encProduct, c]
    rw [(uint_split e2).2, (uint_split e3).2, q]
    simp only [List.append_assoc]
  · split at h
    · rename_i h0
      step h t s1 e1
      obtain ⟨rfl, rfl⟩ := pure_ok h
      obtain ⟨o, q⟩ := product41_split e1
      exact ⟨.p4_1 t, o, h0.symm, rfl, by simp, q⟩
    · split at h
      · rename_i h0
        step h t s1 e1
        obtain ⟨rfl, rfl⟩ := pure_ok h
        unfold readProductTemplate4_8 at e1
        step e1 category s2 e2
        step e1 number s3 e3
        step e1 rest s4 e4
        step e1 k s5 e5
        step e1 ranges s6 e6
        obtain ⟨rfl, rfl⟩ := pure_ok e1
        obtain ⟨o, c⟩ := code_category (uint_split e2).1
        obtain ⟨q, ql⟩ := bytes_ok_iff.mp e4
        obtain ⟨q', ql'⟩ := bytes_ok_iff.mp e6
        refine ⟨.p4_8 (categoryOfCode category) number rest k ranges, ⟨o, (uint_split e3).1, ql, (uint_split e5).1, ql'⟩,
          h0.symm, rfl, by simp, ?_⟩
        simp only [encProduct, c]
        rw [(uint_split e2).2, (uint_split e3).2, q, (uint_split e5).2, q']
        simp only [List.append_assoc]
      · rename_i h0 h1 h8
        step h content s1 e1
        obtain ⟨rfl, rfl⟩ := pure_ok h
        obtain ⟨q, ql⟩ := bytes_ok_iff.mp e1
        refine ⟨.other n content, ⟨hn, by simp [h0, h1, h8]⟩, rfl, rfl, ?_, q⟩
        intro k c e
        simp only [Product.other.injEq] at e
        rw [← e.2, ql]

theorem section4_split {a : Section4} {s r : List UInt8} (h : readSection4 s = .ok (a, r)) :
    ∃ (length : Nat) (p : Product) (ws : List F32Word),
      9 ≤ length ∧ length < 2 ^ 32 ∧ productOk p ∧ ws.length < 2 ^ 16 ∧ (∀ w ∈ ws, w.ok) ∧
      (∀ k c, p = .other k c → length = 9 + c.length) ∧ a = ⟨length, ws.map F32Word.value, productDoc p⟩ ∧
      s = be 4 length ++ be 1 4 ++ be 2 ws.length ++ be 2 (productNumber p) ++ encProduct p
        ++ ws.flatMap (fun w => be 4 w.bits) ++ r := by
  unfold readSection4 at h
  step h length s1 e1
  step h number s2 e2
  step h count s3 e3
  step h tpl s4 e4
  by_cases hl : length < 9
  · rw [if_pos hl] at h; simp at h
  · rw [if_neg hl] at h
    step h t s5 e5
    step h words s6 e6
    by_cases hn : number = 4
    · rw [if_neg (by simp [hn])] at h
      obtain ⟨rfl, rfl⟩ := pure_ok h
      obtain ⟨p, hp, pn, rfl, pc, q⟩ := product_split (uint_split e4).1 e5
      obtain ⟨wl, wb, wq⟩ := times_split _ e6
      have hs : ∀ n ∈ words, _ := fun n hn => word32_bits (wb n hn)
      have e : (words.map word32).flatMap (fun w => be 4 w.bits) = words.flatMap (be 4) :=
        flatMap_congr' _ _ _ words (fun n hn => by rw [(hs n hn).1])
      have ev : words.map f32OfBits = (words.map word32).map F32Word.value := by
        rw [List.map_map]
        apply List.map_congr_left
        intro n hn
        rw [Function.comp_apply, ← f32OfBits_bits _ (hs n hn).2, (hs n hn).1]
      refine ⟨length, p, words.map word32, by omega, (uint_split e1).1, hp, ?_, ?_, ?_, by rw [ev], ?_⟩
      · rw [List.length_map, wl]; exact (uint_split e3).1
      · intro w hw
        obtain ⟨n, hn, rfl⟩ := List.mem_map.mp hw
        exact (hs n hn).2
      · intro k c hc
        have := pc k c hc
        omega
      · rw [e, pn, List.length_map, wl, (uint_split e1).2, (uint_split e2).2, (uint_split e3).2, (uint_split e4).2, q,
          wq, hn]
        simp only [List.append_assoc]
    · rw [if_pos hn] at h; simp at h

theorem scale16_split {n : Nat} (h : n < 2 ^ 16) :
    (-32767 ≤ signedNumberOfU16 n ∧ signedNumberOfU16 n ≤ 32767) ∧ IsScale (signedNumberOfU16 n) (be 2 n) := by
  have h15 (n : Nat) : n &&& 0x7FFF = n % 2 ^ 15 := Nat.and_two_pow_sub_one_eq_mod n 15
  have h16 (n : Nat) : n &&& 0x8000 = (n / 2 ^ 15 % 2) * 2 ^ 15 := and_pow n 15
  unfold signedNumberOfU16 IsScale signMagnitude16
  simp only [h15, h16]
  split
  · refine ⟨by omega, ?_⟩
    by_cases h0 : n = 2 ^ 15
    · subst h0; right; exact ⟨by norm_num, rfl⟩
    · left
      rw [if_pos (by omega)]
      congr 1
      omega
  · refine ⟨by omega, .inl ?_⟩
    rw [if_neg (by omega)]
    congr 1
    omega

theorem packing_split {a : DataTemplate} {n len : Nat} (hn : n < 2 ^ 16) {s r : List UInt8}
    (h : readDataTemplate n len s = .ok (a, r)) :
    ∃ (p : Packing) (e : List UInt8), packingOk p ∧ packingNumber p = n ∧ packingDoc p = a ∧
      (∀ k c, p = .other k c → c.length = len) ∧ IsPacking p e ∧ s = e ++ r := by
  unfold readDataTemplate at h
  split at h
  · rename_i h0
    step h t s1 e1
    obtain ⟨rfl, rfl⟩ := pure_ok h
    unfold readDataTemplate5_0 at e1
    step e1 ref s2 e2
    step e1 bs s3 e3
    step e1 ds s4 e4
    step e1 bits s5 e5
    step e1 ft s6 e6
    obtain ⟨rfl, rfl⟩ := pure_ok e1
    obtain ⟨wb, wo⟩ := word32_bits (uint_split e2).1
    obtain ⟨o, c⟩ := code_fieldType (uint_split e6).1
    obtain ⟨k1, i1⟩ := scale16_split (uint_split e3).1
    obtain ⟨k2, i2⟩ := scale16_split (uint_split e4).1
    refine ⟨.simple (word32 ref) (signedNumberOfU16 bs) (signedNumberOfU16 ds) bits (fieldTypeOfCode ft), _,
      ⟨wo, k1, k2, (uint_split e5).1, o⟩, h0.symm, ?_, by simp, ⟨_, _, i1, i2, rfl⟩, ?_⟩
    · rw [packingDoc, ← f32OfBits_bits _ wo, wb]
    · rw [wb, c, (uint_split e2).2, (uint_split e3).2, (uint_split e4).2, (uint_split e5).2, (uint_split e6).2]
      simp only [List.append_assoc]
  · rename_i h0
    step h content s1 e1
    obtain ⟨rfl, rfl⟩ := pure_ok h
    obtain ⟨q, ql⟩ := bytes_ok_iff.mp e1
    refine ⟨.other n content, content, ⟨hn, h0⟩, rfl, rfl, ?_, rfl, q⟩
    intro k c e
    simp only [Packing.other.injEq] at e
    rw [← e.2, ql]

theorem section5_split {a : Section5} {s r : List UInt8} (h : readSection5 s = .ok (a, r)) :
    ∃ (length values : Nat) (p : Packing) (e : List UInt8),
      11 ≤ length ∧ length < 2 ^ 32 ∧ values < 2 ^ 32 ∧ packingOk p ∧
      (∀ k c, p = .other k c → length = 11 + c.length) ∧ IsPacking p e ∧ a = ⟨length, values, packingDoc p⟩ ∧
      s = be 4 length ++ be 1 5 ++ be 4 values ++ be 2 (packingNumber p) ++ e ++ r := by
  unfold readSection5 at h
  step h length s1 e1
  step h number s2 e2
  step h values s3 e3
  step h tpl s4 e4
  by_cases hl : length < 11
  · rw [if_pos hl] at h; simp at h
  · rw [if_neg hl] at h
    step h t s5 e5
    by_cases hn : number = 5
    · rw [if_neg (by simp [hn])] at h
      obtain ⟨rfl, rfl⟩ := pure_ok h
      obtain ⟨p, e, hp, pn, rfl, pc, pe, q⟩ := packing_split (uint_split e4).1 e5
      refine ⟨length, values, p, e, by omega, (uint_split e1).1, (uint_split e3).1, hp, ?_, pe, rfl, ?_⟩
      · intro k c hc
        have := pc k c hc
        omega
      · rw [pn, (uint_split e1).2, (uint_split e2).2, (uint_split e3).2, (uint_split e4).2, q, hn]
        simp only [List.append_assoc]
    · rw [if_pos hn] at h; simp at h

theorem section6_split {a : Section6} {s r : List UInt8} (h : readSection6 s = .ok (a, r)) :
    ∃ (indicator : Nat) (bitmap : List UInt8), indicator < 256 ∧ 6 + bitmap.length < 2 ^ 32 ∧
      a = ⟨6 + bitmap.length, indicator, bitmap⟩ ∧
      s = be 4 (6 + bitmap.length) ++ be 1 6 ++ be 1 indicator ++ bitmap ++ r := by
  unfold readSection6 at h
  step h length s1 e1
  step h number s2 e2
  step h indicator s3 e3
  by_cases hl : length < 6
  · rw [if_pos hl] at h; simp at h
  · rw [if_neg hl] at h
    step h bitmap s4 e4
    by_cases hn : number = 6
    · rw [if_neg (by simp [hn])] at h
      obtain ⟨rfl, rfl⟩ := pure_ok h
      obtain ⟨q, ql⟩ := bytes_ok_iff.mp e4
      have hlen : length = 6 + bitmap.length := by omega
      have := (uint_split e1).1
      refine ⟨indicator, bitmap, (uint_split e3).1, by omega, by rw [hlen], ?_⟩
      rw [(uint_split e1).2, (uint_split e2).2, (uint_split e3).2, q, hlen, hn]
      simp only [List.append_assoc]
    · rw [if_pos hn] at h; simp at h

theorem section7_split {a : Section7} {s r : List UInt8} (h : readSection7 s = .ok (a, r)) :
    ∃ (length : Nat) (data : List Nat), length < 2 ^ 32 ∧
      (length = 5 + 2 * data.length ∨ length = 6 + 2 * data.length) ∧ (∀ v ∈ data, v < 2 ^ 16) ∧
      a = ⟨length, data⟩ ∧ s = be 4 length ++ be 1 7 ++ data.flatMap (be 2) ++ r := by
  unfold readSection7 at h
  step h length s1 e1
  step h number s2 e2
  by_cases hl : length < 5
  · rw [if_pos hl] at h; simp at h
  · rw [if_neg hl] at h
    step h data s3 e3
    by_cases hn : number = 7
    · rw [if_neg (by simp [hn])] at h
      obtain ⟨rfl, rfl⟩ := pure_ok h
      obtain ⟨dl, db, q⟩ := times_split _ e3
      refine ⟨length, data, (uint_split e1).1, by omega, db, rfl, ?_⟩
      rw [(uint_split e1).2, (uint_split e2).2, q, hn]
      simp only [List.append_assoc]
    · rw [if_pos hn] at h; simp at h

theorem section8_split {s r : List UInt8} (h : readSection8 s = .ok ((), r)) :
    s = [0x37, 0x37, 0x37, 0x37] ++ r := by
  unfold readSection8 at h
  step h magic s1 e1
  by_cases hm : magic = endMagic
  · rw [if_neg (by simp [hm])] at h
    obtain ⟨-, rfl⟩ := pure_ok h
    obtain ⟨q, -⟩ := bytes_ok_iff.mp e1
    rw [q, hm]
    rfl
  · rw [if_pos hm] at h; simp at h

/-! ## Reading the messages described -/

theorem productNumber_lt {p : Product} (h : productOk p) : productNumber p < 65536 := by
  cases p with
  | other n c => exact h.1
  | _ => simp [productNumber]

theorem packing_read {p : Packing} {e : List UInt8} (h : packingOk p) (he : IsPacking p e) (n : Nat)
    (hn : ∀ k c, p = .other k c → c.length = n) (r : List UInt8) :
    packingNumber p < 65536 ∧ readDataTemplate (packingNumber p) n (e ++ r) = .ok (packingDoc p, r) := by
  have scale : ∀ {d : Int} {s : List UInt8}, (-32767 ≤ d ∧ d ≤ 32767) → IsScale d s →
      ∃ v, v < 65536 ∧ s = be 2 v ∧ signedNumberOfU16 v = d := by
    intro d s hd hs
    rcases hs with rfl | ⟨rfl, rfl⟩
    · exact ⟨_, (signedNumber_enc hd.1 hd.2).1, rfl, (signedNumber_enc hd.1 hd.2).2⟩
    · exact ⟨_, by norm_num, rfl, by decide⟩
  cases p with
  | simple w b d bits ft =>
    obtain ⟨h0, h1, h2, h3, h4⟩ := h
    obtain ⟨hc, hd⟩ := fieldType_code _ h4
    obtain ⟨b', d', ib, id, rfl⟩ := he
    obtain ⟨v, hv, rfl, rfl⟩ := scale h1 ib
    obtain ⟨v', hv', rfl, rfl⟩ := scale h2 id
    refine ⟨by simp [packingNumber], ?_⟩
    simp only [List.append_assoc]
    change (readDataTemplate5_0 >>= fun t => (pure (DataTemplate.simplePacking t) : Rd DataTemplate)) _ = _
    rw [bind_of_ok (a := ⟨w.value, signedNumberOfU16 v, signedNumberOfU16 v', bits, ft⟩) (r := r)]
    · rfl
    · unfold readDataTemplate5_0
      rw [u32_bind (bits_lt w h0), u16_bind hv, u16_bind hv', u8_bind h3, u8_bind hc]
      simp [hd, f32OfBits_bits w h0]
  | other k content =>
    obtain ⟨h0, h1⟩ := h
    obtain rfl := he
    refine ⟨by simp only [packingNumber]; omega, ?_⟩
    have e : readDataTemplate (packingNumber (.other k e)) n = (bytes n >>= fun _ => pure (.unknown k)) := by
      unfold readDataTemplate packingNumber
      rw [if_neg h1]
    rw [e, bytes_bind _ (hn k _ rfl)]
    rfl

theorem product_read {p : Product} (h : productOk p) (n : Nat) (hn : ∀ k c, p = .other k c → c.length = n)
    (r : List UInt8) : readProductTemplate (productNumber p) n (encProduct p ++ r) = .ok (productDoc p, r) := by
  by_cases hk : p.known
  · rw [readProduct_known _ hk _ (encProduct p).length]
    exact (readProduct_enc p _ h rfl r).2 (.inl hk)
  · cases p with
    | other k c =>
      have : n = (encProduct (.other k c)).length := (hn k c rfl).symm
      exact (readProduct_enc _ n h this r).2 (.inr this)
    | _ => exact absurd trivial hk

theorem section3_read {m : Msg} {l : Declared} (hm : m.fields) (hl : l.ok m) (r : List UInt8) :
    readSection3 (looseSection3 m l ++ r) = .ok ((m.docWith l).section3, r) := by
  obtain ⟨-, -, -, -, -, -, -, -, -, -, -, -, -, -, h15, h16, h17, h18, -⟩ := hm
  obtain ⟨l1, l2, -⟩ := hl
  obtain ⟨hc, hd⟩ := source_code _ h15
  obtain ⟨hc', hd'⟩ := interpretation_code _ h17
  unfold readSection3 looseSection3
  simp only [List.append_assoc]
  rw [u32_bind l2, u8_bind (by omega), u8_bind hc, u32_bind (by omega), u8_bind l1,
    u8_bind hc', bind_of_ok (readGrid_enc _ h18 _)]
  simp [hd, hd', Msg.doc, Msg.docWith]

theorem section4_read {m : Msg} {l : Declared} (hm : m.fields) (hl : l.ok m) (r : List UInt8) :
    readSection4 (looseSection4 m l ++ r) = .ok ((m.docWith l).section4, r) := by
  obtain ⟨-, -, -, -, -, -, -, -, -, -, -, -, -, -, -, -, -, -, h19, h21, h22, -⟩ := hm
  obtain ⟨-, -, l3, l4, -, -, -, -, l9, -⟩ := hl
  have hw4 : ∀ w ∈ m.coordinates, ∀ r : List UInt8, u32 (be 4 w.bits ++ r) = .ok (w.bits, r) := by
    intro w hw r
    have := bits_lt w (h22 w hw)
    exact uint_be (by omega) r
  have ht := times_flatMap (m := u32) (fun w : F32Word => be 4 w.bits) F32Word.bits m.coordinates hw4 r
  have hp2 := product_read h19 (l.length4 - 9) (fun k c hc => by have := l9 k c hc; omega)
    (m.coordinates.flatMap (fun w => be 4 w.bits) ++ r)
  unfold readSection4 looseSection4
  simp only [List.append_assoc]
  rw [u32_bind (by omega), u8_bind (by omega), u16_bind (by omega), u16_bind (productNumber_lt h19),
    if_neg (by omega)]
  refine (bind_of_ok hp2).trans ?_
  refine (bind_of_ok ht).trans ?_
  have hv : (m.coordinates.map F32Word.bits).map f32OfBits = m.coordinates.map F32Word.value := by
    rw [List.map_map]
    apply List.map_congr_left
    intro w hw
    rw [Function.comp_apply]
    exact f32OfBits_bits w (h22 w hw)
  rw [hv]
  simp [Msg.doc, Msg.docWith]

theorem section5_read {m : Msg} {l : Declared} {e : List UInt8} (hm : m.fields) (hl : l.ok m)
    (he : IsPacking m.packing e) (r : List UInt8) :
    readSection5 (looseSection5 m l e ++ r) = .ok ((m.docWith l).section5, r) := by
  obtain ⟨-, -, -, -, -, -, -, -, -, -, -, -, -, -, -, -, -, -, -, -, -, h23, h24, -⟩ := hm
  obtain ⟨-, -, -, -, l5, l6, -, -, -, l10⟩ := hl
  have hp := packing_read h24 he (l.length5 - 11) (fun k c hc => by have := l10 k c hc; omega) r
  unfold readSection5 looseSection5
  simp only [List.append_assoc]
  rw [u32_bind (by omega), u8_bind (by omega), u32_bind (by omega), u16_bind hp.1, if_neg (by omega),
    bind_of_ok hp.2]
  simp [Msg.doc, Msg.docWith]

theorem section7_read {m : Msg} {l : Declared} (hm : m.fields) (hl : l.ok m) (r : List UInt8) :
    readSection7 (looseSection7 m l ++ r) = .ok ((m.docWith l).section7, r) := by
  obtain ⟨-, -, -, -, -, -, -, -, -, -, -, -, -, -, -, -, -, -, -, -, -, -, -, -, -, h28⟩ := hm
  obtain ⟨-, -, -, -, -, -, l7, l8, -, -⟩ := hl
  have ht := times_flatMap (m := u16) (be 2) id m.data
    (fun v hv r => uint_be (by have := h28 v hv; omega) r) r
  unfold readSection7 looseSection7
  simp only [List.append_assoc]
  rw [u32_bind (by omega), u8_bind (by omega), if_neg (by omega),
    show (l.length7 - 5) / 2 = m.data.length by omega, bind_of_ok ht]
  simp [Msg.doc, Msg.docWith]

/-- A message with the same sections 0, 1, 2 and 6 and no other content. -/
def Bare (m : Msg) : Msg :=
  { m with product := .other 5 [], coordinates := [], packing := .other 5 [], data := [] }

theorem bare_ok {m : Msg} (h : m.fields) : (Bare m).ok := by
  obtain ⟨h1, h2, h3, h4, h5, h6, h7, h8, h9, h10, h11, h12, h13, h14, h15, h16, h17, h18, -, -, -, h23, -, h26, h27,
    -⟩ := h
  exact ⟨h1, h2, h3, h4, h5, h6, h7, h8, h9, h10, h11, h12, h13, h14, h15, h16, h17, h18, ⟨by norm_num, by simp⟩,
    by simp [section4Length, Bare, encProduct], by simp [Bare], by simp [Bare], h23, ⟨by norm_num, by norm_num⟩,
    by simp [section5Length, Bare, encPacking], h26, h27, by simp [Bare], by simp [Bare]⟩

/-! ## C124 -/

/-- **C124.** Exactly the messages described by `IsMessage` are accepted, with the content they describe. -/
theorem C124_accepted_iff (s : List UInt8) (d : Document) (rest : List UInt8) :
    readSingleDoc s = .ok (d, rest) ↔
      ∃ (m : Msg) (l : Declared) (e : List UInt8), m.fields ∧ l.ok m ∧ m.docWith l = d ∧ IsMessage m l e ∧
        s = e ++ rest := by
  constructor
  · intro h
    unfold readSingleDoc at h
    step h a0 s0 e0
    step h a1 s1 e1
    step h a2 s2 e2
    step h a3 s3 e3
    step h a4 s4 e4
    step h a5 s5 e5
    step h a6 s6 e6
    step h a7 s7 e7
    step h a8 s8 e8
    obtain ⟨rfl, rfl⟩ := pure_ok h
    obtain ⟨reserved, discipline, edition, total, h1, h2, h3, h4, rfl, q0⟩ := section0_split e0
    obtain ⟨center, subcenter, master, loc, sig, time, status, dt, tail, h5, h6, h7, h8, h9, h10, h11, h12, h13, rfl,
      q1⟩ := section1_split e1
    obtain ⟨use, h14, rfl, q2⟩ := section2_split e2
    obtain ⟨l3, source, points, opt, interp, g, k1, h15, h16, k2, h17, h18, rfl, q3⟩ := section3_split e3
    obtain ⟨l4, p, ws, k3, k4, h19, h20, h21, k5, rfl, q4⟩ := section4_split e4
    obtain ⟨l5, values, pk, pe, k6, k7, h22, h23, k8, ip, rfl, q5⟩ := section5_split e5
    obtain ⟨ind, bitmap, h24, h25, rfl, q6⟩ := section6_split e6
    obtain ⟨l7, data, k9, k10, h26, rfl, q7⟩ := section7_split e7
    have q8 := section8_split e8
    refine ⟨⟨reserved, discipline, edition, total, center, subcenter, master, loc, sig, time, status, dt, tail, use,
      source, points, interp, g, p, ws, values, pk, ind, bitmap, data⟩, ⟨opt, l3, l4, l5, l7⟩, _,
      ⟨h1, h2, h3, h4, h5, h6, h7, h8, h9, h10, h11, h12, h13, h14, h15, h16, h17, h18, h19, h20, h21, h22, h23, h24,
        h25, h26⟩, ⟨k2, k1, k3, k4, k6, k7, k10, k9, k5, k8⟩, rfl, ⟨pe, ip, rfl⟩, ?_⟩
    simp only [encSection0, encSection1, encSection2, encSection6, looseSection3, looseSection4, looseSection5,
      looseSection7]
    rw [q0, q1, q2, q3, q4, q5, q6, q7, q8]
    simp only [List.append_assoc]
  · rintro ⟨m, l, e, hm, hl, rfl, ⟨pe, ip, rfl⟩, rfl⟩
    unfold readSingleDoc
    simp only [List.append_assoc]
    have b := bare_ok hm
    have r0 : ∀ r, readSection0 (encSection0 m ++ r) = .ok ((m.docWith l).section0, r) := readSection0_enc (Bare m) b
    have r1 : ∀ r, readSection1 (encSection1 m ++ r) = .ok ((m.docWith l).section1, r) := readSection1_enc (Bare m) b
    have r2 : ∀ r, readSection2 (encSection2 m ++ r) = .ok ((m.docWith l).section2, r) := readSection2_enc (Bare m) b
    have r6 : ∀ r, readSection6 (encSection6 m ++ r) = .ok ((m.docWith l).section6, r) := readSection6_enc (Bare m) b
    rw [bind_of_ok (r0 _), bind_of_ok (r1 _), bind_of_ok (r2 _),
      bind_of_ok (section3_read hm hl _), bind_of_ok (section4_read hm hl _),
      bind_of_ok (section5_read hm hl ip _), bind_of_ok (r6 _),
      bind_of_ok (section7_read hm hl _), bind_of_ok (m := readSection8) (a := ()) (r := rest)]
    · rfl
    · unfold readSection8
      rw [bytes_bind (n := 4) [0x37, 0x37, 0x37, 0x37] rfl]
      rfl

/-- **C124, the part that holds.** If the lengths that an accepted message declares are right, it is the encoding of
its content, but that scale factors of zero may carry a sign. -/
theorem C124_strict_partial (m : Msg) (e : List UInt8) (hm : m.fields) (hl : m.declared.ok m)
    (he : IsMessage m m.declared e) :
    m.ok ∧ (∀ rest, readSingleDoc (e ++ rest) = .ok (m.doc, rest)) ∧ e.length = (encode m).length ∧
      (e = encode m ∨ ∃ r b d bits ft, m.packing = .simple r b d bits ft ∧ (b = 0 ∨ d = 0)) := by
  refine ⟨?_, fun rest => (C124_accepted_iff _ _ _).mpr ⟨m, _, e, hm, hl, rfl, he, rfl⟩, ?_⟩
  · obtain ⟨-, -, -, l4, -, l6, -, l8, -, -⟩ := hl
    obtain ⟨h1, h2, h3, h4, h5, h6, h7, h8, h9, h10, h11, h12, h13, h14, h15, h16, h17, h18, h19, h20, h21, h22, h23,
      h24, h25, h26⟩ := hm
    exact ⟨h1, h2, h3, h4, h5, h6, h7, h8, h9, h10, h11, h12, h13, h14, h15, h16, h17, h18, h19, l4, h20, h21, h22,
      h23, l6, h24, h25, h26, l8⟩
  · obtain ⟨p, hp, rfl⟩ := he
    have hs : ∀ {v : Int} {s : List UInt8}, IsScale v s → s.length = 2 ∧ (s = be 2 (signMagnitude16 v) ∨ v = 0) := by
      intro v s h
      rcases h with rfl | ⟨rfl, rfl⟩
      · exact ⟨be_length _ _, .inl rfl⟩
      · exact ⟨be_length _ _, .inr rfl⟩
    have : p.length = (encPacking m.packing).length ∧
        (p = encPacking m.packing ∨ ∃ r b d bits ft, m.packing = .simple r b d bits ft ∧ (b = 0 ∨ d = 0)) := by
      cases hk : m.packing with
      | simple r b d bits ft =>
        rw [hk] at hp
        obtain ⟨b', d', ib, id, rfl⟩ := hp
        obtain ⟨lb, cb⟩ := hs ib
        obtain ⟨ld, cd⟩ := hs id
        refine ⟨by simp [encPacking, lb, ld], ?_⟩
        rcases cb with rfl | h
        · rcases cd with rfl | h
          · left; simp [encPacking]
          · exact .inr ⟨r, b, d, bits, ft, rfl, .inr h⟩
        · exact .inr ⟨r, b, d, bits, ft, rfl, .inl h⟩
      | other n c => rw [hk] at hp; exact ⟨congrArg _ hp, .inl hp⟩
    refine ⟨?_, this.2.imp_left ?_⟩
    · simp [encode, looseSection3, looseSection4, looseSection5, looseSection7, encSection3, encSection4, encSection5,
        encSection7, this.1]
    · rintro rfl
      rfl

/-- The part of a message that its declared lengths do not influence is determined by the document. -/
theorem section3Length_of_doc {m m' : Msg} (h : gridDoc m.grid = gridDoc m'.grid) :
    section3Length m = section3Length m' := by
  unfold section3Length
  cases h1 : m.grid <;> cases h2 : m'.grid <;> rw [h1, h2] at h <;> simp [gridDoc] at h <;>
    simp [encGrid, encScale]

/-- **C124, violated.** Every message is also accepted with any other length of section 3, though it is then the
encoding of no message. -/
theorem C124_counterexample (m : Msg) (hm : m.ok) (hk : m.product.known ∨ m.coordinates = []) (n : Nat)
    (hn : n < 2 ^ 32) (hne : n ≠ section3Length m) (rest : List UInt8) :
    ∃ e, IsMessage m { m.declared with length3 := n } e ∧
      readSingleDoc (e ++ rest) = .ok (m.docWith { m.declared with length3 := n }, rest) ∧
      ∀ (m' : Msg) (rest' : List UInt8), m'.ok → (m'.product.known ∨ m'.coordinates = []) →
        e ++ rest ≠ encode m' ++ rest' := by
  obtain ⟨h1, h2, h3, h4, h5, h6, h7, h8, h9, h10, h11, h12, h13, h14, h15, h16, h17, h18, h19, l4, h20, h21, h22,
      h23, l6, h24, h25, h26, l8⟩ := hm
  have hf : m.fields := ⟨h1, h2, h3, h4, h5, h6, h7, h8, h9, h10, h11, h12, h13, h14, h15, h16, h17, h18, h19, h20,
    h21, h22, h23, h24, h25, h26⟩
  have hp : IsPacking m.packing (encPacking m.packing) := by
    cases m.packing with
    | simple r b d bits ft => exact ⟨_, _, .inl rfl, .inl rfl, by simp [encPacking]⟩
    | other n c => rfl
  have hl : Declared.ok { m.declared with length3 := n } m := by
    refine ⟨by simp [Msg.declared], hn, by simp only [Msg.declared, section4Length]; omega, l4,
      by simp only [Msg.declared, section5Length]; omega, l6, .inl rfl, l8, ?_, ?_⟩
    · intro k c hc
      rcases hk with hk | hk
      · rw [hc] at hk; exact absurd hk id
      · simp [Msg.declared, section4Length, hc, hk, encProduct]
    · intro k c hc
      simp [Msg.declared, section5Length, hc, encPacking]
  have he : IsMessage m { m.declared with length3 := n } _ := ⟨_, hp, rfl⟩
  have hr := (C124_accepted_iff _ _ rest).mpr ⟨m, _, _, hf, hl, rfl, he, rfl⟩
  refine ⟨_, he, hr, ?_⟩
  intro m' rest' ok' k' heq
  rw [heq, C01_round_trip m' ok' k' rest'] at hr
  simp only [Res.ok.injEq, Prod.mk.injEq] at hr
  have hd := congrArg Document.section3 hr.1
  have ht : gridDoc m'.grid = gridDoc m.grid := congrArg Section3.template hd
  have hlen : section3Length m' = n := congrArg Section3.length hd
  exact hne (hlen.symm.trans (section3Length_of_doc ht))

/-- A message whose section 3 declares a length of four billion octets. -/
example : ∃ e, IsMessage demoMsg { demoMsg.declared with length3 := 4000000000 } e ∧
    readSingleDoc (e ++ [1]) = .ok (demoMsg.docWith { demoMsg.declared with length3 := 4000000000 }, [1]) :=
  let ⟨e, h, h', _⟩ := C124_counterexample demoMsg demoMsg_ok (.inl trivial) 4000000000 (by norm_num)
    (by decide +kernel) [1]
  ⟨e, h, h'⟩

/-- The hypotheses of the strict form hold for a message with an unknown packing. -/
example : demoMsg2.fields ∧ demoMsg2.declared.ok demoMsg2 ∧
    IsMessage demoMsg2 demoMsg2.declared (encode demoMsg2) := by
  have := demoMsg2_ok
  obtain ⟨h1, h2, h3, h4, h5, h6, h7, h8, h9, h10, h11, h12, h13, h14, h15, h16, h17, h18, h19, l4, h20, h21, h22,
      h23, l6, h24, h25, h26, l8⟩ := this
  refine ⟨⟨h1, h2, h3, h4, h5, h6, h7, h8, h9, h10, h11, h12, h13, h14, h15, h16, h17, h18, h19, h20,
    h21, h22, h23, h24, h25, h26⟩, ⟨by decide, by decide +kernel, by decide +kernel, l4, by decide +kernel, l6, .inl rfl,
    l8, ?_, ?_⟩, _, ?_, rfl⟩
  · intro k c hc
    simp only [demoMsg2, Product.other.injEq] at hc
    rw [← hc.2]
    decide +kernel
  · intro k c hc
    simp only [demoMsg2, Packing.other.injEq] at hc
    rw [← hc.2]
    decide +kernel
  · rfl

end Verif.Grib2
