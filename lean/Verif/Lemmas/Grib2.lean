import Verif.Lemmas.Bytes

/-!
# Lemmas about the GRIB2 section readers
-/

namespace Verif.Grib2

open Verif Rd Spec.Grib2

/-! ## Reading back encoded sections -/

theorem discipline_code (d : Discipline) (h : disciplineOk d) :
    disciplineCode d < 256 ∧ disciplineOfCode (disciplineCode d) = d := by
  cases d with
  | unknown c =>
    simp only [disciplineOk, List.mem_cons, List.not_mem_nil, or_false, not_or] at h
    refine ⟨h.1, ?_⟩
    simp only [disciplineCode, disciplineOfCode]
    split <;> simp_all
  | _ => exact ⟨by decide, rfl⟩

theorem significance_code (d : RefTimeSignificance) (h : significanceOk d) :
    significanceCode d < 256 ∧ refTimeSignificanceOfCode (significanceCode d) = d := by
  cases d with
  | unknown c =>
    simp only [significanceOk, List.mem_cons, List.not_mem_nil, or_false, not_or] at h
    refine ⟨h.1, ?_⟩
    simp only [significanceCode, refTimeSignificanceOfCode]
    split <;> simp_all
  | _ => exact ⟨by decide, rfl⟩

theorem status_code (d : ProductionStatus) (h : statusOk d) :
    statusCode d < 256 ∧ productionStatusOfCode (statusCode d) = d := by
  cases d with
  | unknown c =>
    simp only [statusOk, List.mem_cons, List.not_mem_nil, or_false, not_or] at h
    refine ⟨h.1, ?_⟩
    simp only [statusCode, productionStatusOfCode]
    split <;> simp_all
  | _ => exact ⟨by decide, rfl⟩

theorem dataType_code (d : ProcessedDataType) (h : dataTypeOk d) :
    dataTypeCode d < 256 ∧ processedDataTypeOfCode (dataTypeCode d) = d := by
  cases d with
  | unknown c =>
    simp only [dataTypeOk, List.mem_cons, List.not_mem_nil, or_false, not_or] at h
    refine ⟨h.1, ?_⟩
    simp only [dataTypeCode, processedDataTypeOfCode]
    split <;> simp_all
  | _ => exact ⟨by decide, rfl⟩

theorem source_code (d : GridDefinitionSource) (h : sourceOk d) :
    sourceCode d < 256 ∧ gridSourceOfCode (sourceCode d) = d := by
  cases d with
  | unknown c =>
    simp only [sourceOk, List.mem_cons, List.not_mem_nil, or_false, not_or] at h
    refine ⟨h.1, ?_⟩
    simp only [sourceCode, gridSourceOfCode]
    split <;> simp_all
  | _ => exact ⟨by decide, rfl⟩

theorem interpretation_code (d : OptionalPointInterpretation) (h : interpretationOk d) :
    interpretationCode d < 256 ∧ interpretationOfCode (interpretationCode d) = d := by
  cases d with
  | unknown c =>
    simp only [interpretationOk, List.mem_cons, List.not_mem_nil, or_false, not_or] at h
    refine ⟨h.1, ?_⟩
    simp only [interpretationCode, interpretationOfCode]
    split <;> simp_all
  | _ => exact ⟨by decide, rfl⟩

theorem shape_code (d : ShapeOfEarth) (h : shapeOk d) :
    shapeCode d < 256 ∧ shapeOfCode (shapeCode d) = d := by
  cases d with
  | unknown c =>
    simp only [shapeOk, List.mem_cons, List.not_mem_nil, or_false, not_or] at h
    refine ⟨h.1, ?_⟩
    simp only [shapeCode, shapeOfCode]
    split <;> simp_all
  | _ => exact ⟨by decide, rfl⟩

theorem category_code (d : MeteoParameterCategory) (h : categoryOk d) :
    categoryCode d < 256 ∧ categoryOfCode (categoryCode d) = d := by
  cases d with
  | unknown c =>
    simp only [categoryOk, List.mem_cons, List.not_mem_nil, or_false, not_or] at h
    refine ⟨h.1, ?_⟩
    simp only [categoryCode, categoryOfCode]
    split <;> simp_all
  | _ => exact ⟨by decide, rfl⟩

theorem fieldType_code (d : OriginalFieldType) (h : fieldTypeOk d) :
    fieldTypeCode d < 256 ∧ fieldTypeOfCode (fieldTypeCode d) = d := by
  cases d with
  | unknown c =>
    simp only [fieldTypeOk, List.mem_cons, List.not_mem_nil, or_false, not_or] at h
    refine ⟨h.1, ?_⟩
    simp only [fieldTypeCode, fieldTypeOfCode]
    split <;> simp_all
  | _ => exact ⟨by decide, rfl⟩

theorem validDateTime_iff (t : DateTime) : validDateTime t = true ↔
    (1 ≤ t.month ∧ t.month ≤ 12 ∧ 1 ≤ t.day ∧
      t.day ≤ (if t.month = 2 then
          (if (t.year % 4 = 0 ∧ t.year % 100 ≠ 0) ∨ t.year % 400 = 0 then 29 else 28)
        else if t.month = 4 ∨ t.month = 6 ∨ t.month = 9 ∨ t.month = 11 then 30 else 31)) ∧
    t.hour < 24 ∧ t.minute < 60 ∧ t.second < 60 := by
  unfold validDateTime
  rw [Bool.and_eq_true, decide_eq_true_iff, decide_eq_true_iff]
  apply and_congr_left
  intro _
  unfold daysInMonth
  split
  all_goals first
    | (simp_all; done)
    | (simp_all; omega)

theorem angleOfU32_eq {v : Nat} (h : v < 2 ^ 32) : angleOfU32 v = angleValue v := by
  unfold angleOfU32 angleValue Fl.ofNat
  have hr : rnd f32 (v : Rat) = .fin (rndq f32 v) := by
    have hv : (0 : Rat) ≤ (v : Rat) := by exact_mod_cast Nat.zero_le v
    apply rnd_fin prec32 (rep_pow2 (F := f32) (by decide : f32.emin ≤ 32))
    · exact pow2_lt (by decide)
    · rw [abs_of_nonneg hv, pow2_eq]; norm_num; exact_mod_cast h.le
  rw [hr, Fl.div_fin]
  norm_num

theorem and_pow (v k : Nat) : v &&& 2 ^ k = v / 2 ^ k % 2 * 2 ^ k := by
  have h : v &&& 2 ^ k = if v.testBit k then 2 ^ k else 0 := by
    apply Nat.eq_of_testBit_eq
    intro i
    rw [Nat.testBit_and, Nat.testBit_two_pow]
    by_cases hi : k = i
    · subst hi; cases v.testBit k <;> simp
    · cases v.testBit k <;> simp [hi]
  rw [h, Nat.testBit_eq_decide_div_mod_eq]
  rcases Nat.mod_two_eq_zero_or_one (v / 2 ^ k) with h | h <;> simp [h]

theorem clear_and {v k : Nat} : (v &&& 2 ^ k == 0) = clear v k := by
  unfold clear
  rw [and_pow]
  rcases Nat.mod_two_eq_zero_or_one (v / 2 ^ k) with h | h <;> simp [h]

theorem readRefTime_enc (t : DateTime) (h : timeOk t) (r : List UInt8) :
    readRefTime (be 2 t.year ++ (be 1 t.month ++ (be 1 t.day ++ (be 1 t.hour ++
      (be 1 t.minute ++ (be 1 t.second ++ r)))))) = .ok (t, r) := by
  have hv : validDateTime t = true :=
    (validDateTime_iff t).mpr ⟨⟨h.2.1, h.2.2.1, h.2.2.2.1, h.2.2.2.2.1⟩, h.2.2.2.2.2⟩
  unfold timeOk at h
  have hd : t.day < 256 := by
    have := h.2.2.2.2.1
    split at this
    · split at this <;> omega
    · split at this <;> omega
  unfold readRefTime
  rw [u16_bind (by omega), u8_bind (by omega), u8_bind hd, u8_bind (by omega),
    u8_bind (by omega), u8_bind (by omega)]
  simp only [hv, if_true, pure_apply]

theorem readSection0_enc (m : Msg) (h : m.ok) (r : List UInt8) :
    readSection0 (encSection0 m ++ r) = .ok (m.doc.section0, r) := by
  obtain ⟨h1, h2, h3, h4, -⟩ := h
  obtain ⟨hc, hd⟩ := discipline_code _ h2
  unfold readSection0 encSection0
  simp only [bytesIgnoringError_then_u8, List.append_assoc]
  rw [bytes_bind _ (by rfl), bytes_bind _ h1, u8_bind hc, u8_bind h3, u64_bind (by omega)]
  simp [gribMagic, hd, Msg.doc]

theorem readSection1_enc (m : Msg) (h : m.ok) (r : List UInt8) :
    readSection1 (encSection1 m ++ r) = .ok (m.doc.section1, r) := by
  obtain ⟨-, -, -, -, h5, h6, h7, h8, h9, h10, h11, h12, h13, -⟩ := h
  obtain ⟨hc, hd⟩ := significance_code _ h9
  obtain ⟨hc', hd'⟩ := status_code _ h11
  obtain ⟨hc'', hd''⟩ := dataType_code _ h12
  unfold readSection1 encSection1
  simp only [List.append_assoc]
  rw [u32_bind (by omega), u8_bind (by omega), u16_bind (by omega), u16_bind (by omega),
    u8_bind h7, u8_bind h8, u8_bind hc, bind_of_ok (readRefTime_enc _ h10 _), u8_bind hc',
    u8_bind hc'']
  rw [if_neg (by simp), if_neg (by omega), bytes_bind _ (by omega)]
  simp [hd, hd', hd'', Msg.doc]

theorem readSection2_enc (m : Msg) (h : m.ok) (r : List UInt8) :
    readSection2 (encSection2 m ++ r) = .ok (m.doc.section2, r) := by
  obtain ⟨-, -, -, -, -, -, -, -, -, -, -, -, -, h14, -⟩ := h
  unfold readSection2 encSection2
  simp only [List.append_assoc]
  rw [u32_bind (by omega), u8_bind (by omega), if_neg (by simp), if_neg (by omega),
    bytes_bind _ (by omega)]
  simp [Msg.doc]

theorem readScale_enc (s : ScaleFactorValue) (h : scaleOk s) (r : List UInt8) :
    readScaleFactorValue (encScale s ++ r) = .ok (s, r) := by
  obtain ⟨h1, h2⟩ := h
  unfold readScaleFactorValue encScale
  rw [List.append_assoc, u8_bind h1, u32_bind (by omega)]
  simp

theorem readAngle_enc {v : Nat} (h : v < 2 ^ 32) (r : List UInt8) :
    readAngle (be 4 v ++ r) = .ok (angleValue v, r) := by
  unfold readAngle
  rw [u32_bind (by omega)]
  simp [angleOfU32_eq h]

theorem readGrid_enc (g : Grid) (h : gridOk g) (r : List UInt8) :
    readGridTemplate (encGrid g ++ r) = .ok (gridDoc g, r) := by
  cases g with
  | latLon g =>
    obtain ⟨h0, h1, h2, h3, h4, h5, h6, h7, h8, h9, h10, h11, h12, h13, h14, h15⟩ := h
    obtain ⟨hc, hd⟩ := shape_code _ h0
    have hb : readGridTemplate3_0 (be 1 (shapeCode g.shape) ++ (encScale g.radius ++
        (encScale g.major ++ (encScale g.minor ++ (be 4 g.ni ++ (be 4 g.nj ++
        (be 4 g.basicAngle ++ (be 4 g.subdivision ++ (be 4 g.la1 ++ (be 4 g.lo1 ++
        (be 1 g.resolution ++ (be 4 g.la2 ++ (be 4 g.lo2 ++ (be 4 g.di ++ (be 4 g.dj ++
        (be 1 g.scanning ++ r)))))))))))))))) = .ok
        ({ shapeOfEarth := g.shape, sphericalEarthRadius := g.radius, majorAxis := g.major
           minorAxis := g.minor, pointsAlongParallel := g.ni, pointsAlongMeridian := g.nj
           basicAngle := g.basicAngle, subdivision := g.subdivision
           firstLat := angleValue g.la1, firstLon := angleValue g.lo1
           resolutionFlags := ⟨clear g.resolution 2, clear g.resolution 3, clear g.resolution 4⟩
           lastLat := angleValue g.la2, lastLon := angleValue g.lo2
           iIncrement := angleValue g.di, jIncrement := angleValue g.dj
           scanningMode := ⟨clear g.scanning 0, clear g.scanning 1, clear g.scanning 2,
             clear g.scanning 3, clear g.scanning 4, clear g.scanning 5, clear g.scanning 6,
             clear g.scanning 7⟩ }, r) := by
      unfold readGridTemplate3_0
      rw [u8_bind hc, bind_of_ok (readScale_enc _ h1 _), bind_of_ok (readScale_enc _ h2 _),
        bind_of_ok (readScale_enc _ h3 _), u32_bind (by omega), u32_bind (by omega),
        u32_bind (by omega), u32_bind (by omega), bind_of_ok (readAngle_enc h8 _),
        bind_of_ok (readAngle_enc h9 _), u8_bind h10, bind_of_ok (readAngle_enc h11 _),
        bind_of_ok (readAngle_enc h12 _), bind_of_ok (readAngle_enc h13 _),
        bind_of_ok (readAngle_enc h14 _), u8_bind h15]
      simp only [pure_apply, hd, resolutionFlagsOfByte, scanningFlagsOfByte, ← clear_and]
      norm_num
    unfold readGridTemplate encGrid
    simp only [List.append_assoc]
    rw [u16_bind (by omega)]
    simp only [if_true]
    rw [bind_of_ok hb]
    rfl
  | unstructured shape number inRef uuid =>
    obtain ⟨h0, h1, h2, h3⟩ := h
    obtain ⟨hc, hd⟩ := shape_code _ h0
    unfold readGridTemplate encGrid
    simp only [List.append_assoc]
    rw [u16_bind (by omega)]
    simp only [if_neg (show ¬(101 = 0) by omega), if_true]
    rw [bind_of_ok (a := ⟨shape, number, inRef, uuid⟩) (r := r)]
    · rfl
    · unfold readGridTemplate3_101
      rw [u8_bind hc, u24_bind (by omega), u8_bind h2, u128_bind (by omega)]
      simp [hd]

theorem readSection3_enc (m : Msg) (h : m.ok) (r : List UInt8) :
    readSection3 (encSection3 m ++ r) = .ok (m.doc.section3, r) := by
  obtain ⟨-, -, -, -, -, -, -, -, -, -, -, -, -, -, h15, h16, h17, h18, -⟩ := h
  obtain ⟨hc, hd⟩ := source_code _ h15
  obtain ⟨hc', hd'⟩ := interpretation_code _ h17
  have hlen : section3Length m < 4294967296 := by
    unfold section3Length
    cases m.grid <;> simp [encGrid, encScale]
  unfold readSection3 encSection3
  simp only [List.append_assoc]
  rw [u32_bind hlen, u8_bind (by omega), u8_bind hc, u32_bind (by omega), u8_bind (by omega),
    u8_bind hc', bind_of_ok (readGrid_enc _ h18 _)]
  simp [hd, hd', Msg.doc]

theorem readProduct_enc (p : Product) (n : Nat) (h : productOk p)
    (hn : n = (encProduct p).length) (r : List UInt8) :
    (productNumber p < 2 ^ 16) ∧
    (p.known ∨ n = (encProduct p).length →
      readProductTemplate (productNumber p) n (encProduct p ++ r) = .ok (productDoc p, r)) := by
  cases p with
  | p4_0 category number rest =>
    obtain ⟨h0, h1, h2⟩ := h
    obtain ⟨hc, hd⟩ := category_code _ h0
    refine ⟨by simp [productNumber], fun _ => ?_⟩
    simp only [encProduct, List.append_assoc]
    change (readProductTemplate4_0 >>= fun t => (pure (ProductTemplate.t4_0 t) : Rd ProductTemplate)) _ = _
    rw [bind_of_ok (a := { category, number }) (r := r)]
    · rfl
    · unfold readProductTemplate4_0
      rw [u8_bind hc, u8_bind h1, bytes_bind _ h2]
      simp [hd]
  | p4_1 t =>
    obtain ⟨h0, h1, h2, h3, h4, h5, h6, h7, h8, h9, h10, h11, h12, h13, h14, h15, h16, h17⟩ := h
    obtain ⟨hc, hd⟩ := category_code _ h0
    refine ⟨by simp [productNumber], fun _ => ?_⟩
    have hs (d : Int) : twosComplement8 d < 256 := by unfold twosComplement8; omega
    simp only [encProduct, List.append_assoc]
    change (readProductTemplate4_1 >>= fun t => (pure (ProductTemplate.t4_1 t) : Rd ProductTemplate)) _ = _
    rw [bind_of_ok (a := t) (r := r)]
    · rfl
    · unfold readProductTemplate4_1
      rw [u8_bind hc, u8_bind h1, u8_bind h2, u8_bind h3, u8_bind h4, u16_bind (by omega),
        u8_bind h6, u8_bind h7, u32_bind (by omega), u8_bind h9, u8_bind (hs _),
        u32_bind (by omega), u8_bind h12, u8_bind (hs _), u32_bind (by omega), u8_bind h15,
        u8_bind h16, u8_bind h17]
      simp [hd, signedOfBits_twos h10.1 h10.2, signedOfBits_twos h13.1 h13.2]
  | p4_8 category number rest k timeRanges =>
    obtain ⟨h0, h1, h2, h3, h4⟩ := h
    obtain ⟨hc, hd⟩ := category_code _ h0
    refine ⟨by simp [productNumber], fun _ => ?_⟩
    simp only [encProduct, List.append_assoc]
    change (readProductTemplate4_8 >>= fun t => (pure (ProductTemplate.t4_8 t) : Rd ProductTemplate)) _ = _
    rw [bind_of_ok (a := { category, number }) (r := r)]
    · rfl
    · unfold readProductTemplate4_8
      rw [u8_bind hc, u8_bind h1, bytes_bind _ h2, u8_bind h3, bytes_bind _ h4]
      simp [hd]
  | other k content =>
    obtain ⟨h0, h1⟩ := h
    simp only [List.mem_cons, List.not_mem_nil, or_false, not_or] at h1
    refine ⟨h0, fun _ => ?_⟩
    have e : readProductTemplate (productNumber (.other k content)) n
        = (bytes n >>= fun _ => pure (.unknown k)) := by
      unfold readProductTemplate productNumber
      rw [if_neg h1.1, if_neg h1.2.1, if_neg h1.2.2]
    rw [e]
    simp only [encProduct]
    rw [bytes_bind _ (by simp [hn, encProduct])]
    rfl

theorem bits_lt (w : F32Word) (h : w.ok) : w.bits < 4294967296 := by
  obtain ⟨h1, h2⟩ := h
  unfold F32Word.bits
  split <;> omega

theorem readProduct_known (p : Product) (hk : p.known) (n k : Nat) (s : List UInt8) :
    readProductTemplate (productNumber p) n s = readProductTemplate (productNumber p) k s := by
  cases p <;> simp_all [Product.known, productNumber, readProductTemplate]

theorem readSection4_enc (m : Msg) (h : m.ok) (hk : m.product.known ∨ m.coordinates = [])
    (r : List UInt8) :
    readSection4 (encSection4 m ++ r) = .ok (m.doc.section4, r) := by
  obtain ⟨-, -, -, -, -, -, -, -, -, -, -, -, -, -, -, -, -, -, h19, h20, h21, h22, -⟩ := h
  have hp := readProduct_enc m.product _ h19 rfl
    (m.coordinates.flatMap (fun w => be 4 w.bits) ++ r)
  have hp2 : readProductTemplate (productNumber m.product) (section4Length m - 9)
      (encProduct m.product ++ (m.coordinates.flatMap (fun w => be 4 w.bits) ++ r)) =
      .ok (productDoc m.product, m.coordinates.flatMap (fun w => be 4 w.bits) ++ r) := by
    rcases hk with hk | hk
    · rw [readProduct_known _ hk _ (encProduct m.product).length]
      exact hp.2 (Or.inl hk)
    · have : section4Length m - 9 = (encProduct m.product).length := by
        simp [section4Length, hk]
      rw [this]
      exact hp.2 (Or.inr rfl)
  have hw4 : ∀ w ∈ m.coordinates, ∀ r : List UInt8, u32 (be 4 w.bits ++ r) = .ok (w.bits, r) := by
    intro w hw r
    have := bits_lt w (h22 w hw)
    exact uint_be (by omega) r
  have ht := times_flatMap (m := u32) (fun w : F32Word => be 4 w.bits) F32Word.bits m.coordinates
    hw4 r
  have hp1 : productNumber m.product < 65536 := by have := hp.1; omega
  have h9 : ¬ section4Length m < 9 := by unfold section4Length; omega
  unfold readSection4 encSection4
  simp only [List.append_assoc]
  rw [u32_bind (by omega), u8_bind (by omega), u16_bind (by omega), u16_bind hp1,
    if_neg h9]
  refine (bind_of_ok hp2).trans ?_
  refine (bind_of_ok ht).trans ?_
  have hm : (m.coordinates.map F32Word.bits).map f32OfBits = m.coordinates.map F32Word.value := by
    rw [List.map_map]
    apply List.map_congr_left
    intro w hw
    rw [Function.comp_apply]
    exact f32OfBits_bits w (h22 w hw)
  rw [hm]
  simp [Msg.doc]

theorem signedNumber_enc {d : Int} (h1 : -32767 ≤ d) (h2 : d ≤ 32767) :
    signMagnitude16 d < 65536 ∧ signedNumberOfU16 (signMagnitude16 d) = d := by
  have h15 (n : Nat) : n &&& 0x7FFF = n % 2 ^ 15 := Nat.and_two_pow_sub_one_eq_mod n 15
  have h16 (n : Nat) : n &&& 0x8000 = (n / 2 ^ 15 % 2) * 2 ^ 15 := and_pow n 15
  unfold signedNumberOfU16 signMagnitude16
  simp only [h15, h16]
  split
  · refine ⟨by omega, ?_⟩
    rw [if_pos (by omega)]
    omega
  · refine ⟨by omega, ?_⟩
    rw [if_neg (by omega)]
    omega

theorem readPacking_enc (p : Packing) (h : packingOk p) (r : List UInt8) :
    packingNumber p < 65536 ∧
    readDataTemplate (packingNumber p) (encPacking p).length (encPacking p ++ r)
      = .ok (packingDoc p, r) := by
  cases p with
  | simple w e d bits ft =>
    obtain ⟨h0, h1, h2, h3, h4⟩ := h
    obtain ⟨hc, hd⟩ := fieldType_code _ h4
    refine ⟨by simp [packingNumber], ?_⟩
    obtain ⟨he1, he2⟩ := signedNumber_enc h1.1 h1.2
    obtain ⟨hd1, hd2⟩ := signedNumber_enc h2.1 h2.2
    simp only [encPacking, List.append_assoc]
    change (readDataTemplate5_0 >>= fun t => (pure (DataTemplate.simplePacking t) : Rd DataTemplate)) _ = _
    rw [bind_of_ok (a := ⟨w.value, e, d, bits, ft⟩) (r := r)]
    · rfl
    · unfold readDataTemplate5_0
      rw [u32_bind (bits_lt w h0), u16_bind he1, u16_bind hd1, u8_bind h3, u8_bind hc]
      simp [hd, he2, hd2, f32OfBits_bits w h0]
  | other k content =>
    obtain ⟨h0, h1⟩ := h
    refine ⟨by simp only [packingNumber]; omega, ?_⟩
    have e (n : Nat) : readDataTemplate (packingNumber (.other k content)) n
        = (bytes n >>= fun _ => pure (.unknown k)) := by
      unfold readDataTemplate packingNumber
      rw [if_neg h1]
    rw [e]
    simp only [encPacking]
    rw [bytes_bind _ rfl]
    rfl

theorem readSection5_enc (m : Msg) (h : m.ok) (r : List UInt8) :
    readSection5 (encSection5 m ++ r) = .ok (m.doc.section5, r) := by
  obtain ⟨-, -, -, -, -, -, -, -, -, -, -, -, -, -, -, -, -, -, -, -, -, -, h23, h24, h25, -⟩ := h
  have hp := readPacking_enc _ h24 r
  have hl : section5Length m - 11 = (encPacking m.packing).length := by
    unfold section5Length; omega
  unfold readSection5 encSection5
  simp only [List.append_assoc]
  rw [u32_bind (by omega), u8_bind (by omega), u32_bind (by omega), u16_bind hp.1,
    if_neg (by unfold section5Length; omega), hl, bind_of_ok hp.2]
  simp [Msg.doc]

theorem readSection6_enc (m : Msg) (h : m.ok) (r : List UInt8) :
    readSection6 (encSection6 m ++ r) = .ok (m.doc.section6, r) := by
  obtain ⟨-, -, -, -, -, -, -, -, -, -, -, -, -, -, -, -, -, -, -, -, -, -, -, -, -, h26, h27, -⟩ := h
  unfold readSection6 encSection6
  simp only [List.append_assoc]
  rw [u32_bind (by omega), u8_bind (by omega), u8_bind h26, if_neg (by omega),
    bytes_bind _ (by omega)]
  simp [Msg.doc]

theorem readSection7_enc (m : Msg) (h : m.ok) (r : List UInt8) :
    readSection7 (encSection7 m ++ r) = .ok (m.doc.section7, r) := by
  obtain ⟨-, -, -, -, -, -, -, -, -, -, -, -, -, -, -, -, -, -, -, -, -, -, -, -, -, -, -, h28, h29⟩ := h
  have ht := times_flatMap (m := u16) (be 2) id m.data
    (fun v hv r => uint_be (by have := h28 v hv; omega) r) r
  unfold readSection7 encSection7
  simp only [List.append_assoc]
  rw [u32_bind (by omega), u8_bind (by omega), if_neg (by omega),
    show (5 + 2 * m.data.length - 5) / 2 = m.data.length by omega, bind_of_ok ht]
  simp [Msg.doc]

theorem readSingleDoc_enc (m : Msg) (h : m.ok) (hk : m.product.known ∨ m.coordinates = [])
    (r : List UInt8) :
    readSingleDoc (encode m ++ r) = .ok (m.doc, r) := by
  unfold readSingleDoc encode
  simp only [List.append_assoc]
  rw [bind_of_ok (readSection0_enc m h _), bind_of_ok (readSection1_enc m h _),
    bind_of_ok (readSection2_enc m h _), bind_of_ok (readSection3_enc m h _),
    bind_of_ok (readSection4_enc m h hk _), bind_of_ok (readSection5_enc m h _),
    bind_of_ok (readSection6_enc m h _), bind_of_ok (readSection7_enc m h _),
    bind_of_ok (m := readSection8) (a := ()) (r := r)]
  · rfl
  · unfold readSection8
    rw [bytes_bind (n := 4) [0x37, 0x37, 0x37, 0x37] rfl]
    rfl

/-! ## Stability -/

syntax "stable" : tactic
macro_rules
  | `(tactic| stable) => `(tactic|
    repeat' first
      | assumption
      | exact stable_pure _
      | exact stable_fail
      | exact stable_crash
      | exact stable_bytes _
      | exact stable_uint _
      | (apply stable_times)
      | (apply stable_ite)
      | (apply stable_bind)
      | intro _)

theorem stable_section0 : Stable readSection0 := by
  unfold readSection0
  simp only [bytesIgnoringError_then_u8]
  unfold u8 u64
  stable

theorem stable_refTime : Stable readRefTime := by
  unfold readRefTime u8 u16; stable
theorem stable_section1 : Stable readSection1 := by
  have := stable_refTime
  unfold readSection1 u8 u16 u32; stable
theorem stable_section2 : Stable readSection2 := by
  unfold readSection2 u8 u32; stable
theorem stable_scale : Stable readScaleFactorValue := by
  unfold readScaleFactorValue u8 u32; stable
theorem stable_angle : Stable readAngle := by
  unfold readAngle u32; stable
theorem stable_grid3_0 : Stable readGridTemplate3_0 := by
  have := stable_scale
  have := stable_angle
  unfold readGridTemplate3_0 u8 u32; stable
theorem stable_grid3_101 : Stable readGridTemplate3_101 := by
  unfold readGridTemplate3_101 u8; stable
theorem stable_grid : Stable readGridTemplate := by
  have := stable_grid3_0
  have := stable_grid3_101
  unfold readGridTemplate u16; stable
theorem stable_section3 : Stable readSection3 := by
  have := stable_grid
  unfold readSection3 u8 u32; stable
theorem stable_product4_0 : Stable readProductTemplate4_0 := by
  unfold readProductTemplate4_0 u8; stable
theorem stable_product4_1 : Stable readProductTemplate4_1 := by
  unfold readProductTemplate4_1 u8 u16 u32; stable
theorem stable_product4_8 : Stable readProductTemplate4_8 := by
  unfold readProductTemplate4_8 u8; stable
theorem stable_product (n l : Nat) : Stable (readProductTemplate n l) := by
  have := stable_product4_0
  have := stable_product4_1
  have := stable_product4_8
  unfold readProductTemplate; stable
theorem stable_section4 : Stable readSection4 := by
  have := stable_product
  unfold readSection4 u8 u16 u32; stable
theorem stable_data5_0 : Stable readDataTemplate5_0 := by
  unfold readDataTemplate5_0 u8 u16 u32; stable
theorem stable_data (n l : Nat) : Stable (readDataTemplate n l) := by
  have := stable_data5_0
  unfold readDataTemplate; stable
theorem stable_section5 : Stable readSection5 := by
  unfold readSection5 u8 u16 u32; stable
theorem stable_section6 : Stable readSection6 := by
  unfold readSection6 u8 u32; stable
theorem stable_section7 : Stable readSection7 := by
  unfold readSection7 u8 u16 u32; stable
theorem stable_section8 : Stable readSection8 := by
  unfold readSection8; stable

theorem stable_single : Stable readSingleDoc := by
  have := stable_section0
  have := stable_section1
  have := stable_section2
  have := stable_section3
  have := stable_section4
  have := stable_section5
  have := stable_section6
  have := stable_section7
  have := stable_section8
  unfold readSingleDoc; stable

theorem readSingleDoc_nil : readSingleDoc [] = .err := rfl

/-- With more fuel than bytes the loop is insensitive to the amount of fuel: it always ends
because the reader fails, never because the fuel runs out. -/
theorem multiLoop_fuel (n : Nat) (s : List UInt8) (h : s.length < n) :
    multiLoop n s = multiLoop (s.length + 1) s := by
  induction n using Nat.strongRecOn generalizing s with
  | ind n ih =>
    rcases n with _ | n
    · omega
    · rw [multiLoop, multiLoop]
      cases hs : readSingleDoc s with
      | ok p =>
        obtain ⟨d, s'⟩ := p
        have hc := stable_single.consumes readSingleDoc_nil hs
        simp only
        rw [ih n (by omega) s' (by omega)]
        rcases Nat.eq_or_lt_of_le (show s.length ≤ n by omega) with e | e
        · rw [e, ih n (by omega) s' (by omega)]
        · rw [ih s.length (by omega) s' hc]
      | err => rfl
      | panic => rfl

end Verif.Grib2
