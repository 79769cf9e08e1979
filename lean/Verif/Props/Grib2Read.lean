import Verif.Lemmas.Grib2Panic

/-!
# Properties C01 - C05: reading GRIB2 messages
-/

namespace Verif.Props

open Verif Verif.Grib2 Verif.Spec.Grib2

/-- A small but complete message used for the non-vacuity examples: a 2x2 lat/lon grid with a bitmap,
three packed values, and a local section. -/
def demoMsg : Msg :=
  { reserved := [0, 0], discipline := .meteorological, edition := 2, totalLength := 200
    center := 78, subcenter := 255, masterTable := 19, localTable := 1
    significance := .startOfForecast, time := ⟨2024, 2, 29, 12, 0, 0⟩
    status := .operational, dataType := .forecast, section1Tail := [], localUse := [1, 2, 3]
    source := .gridDefinitionTemplate, numberOfPoints := 4, interpretation := .none
    grid := .latLon { shape := .sphericalRadius6371229, radius := ⟨0, 0⟩, major := ⟨0, 0⟩
                      minor := ⟨0, 0⟩, ni := 2, nj := 2, basicAngle := 0, subdivision := 0
                      la1 := 43000000, lo1 := 5000000, resolution := 48, la2 := 45000000
                      lo2 := 7000000, di := 1000000, dj := 1000000, scanning := 64 }
    product := .p4_0 .temperature 0 (List.replicate 23 0)
    coordinates := [⟨false, 127, 0⟩], numberOfValues := 3
    packing := .simple ⟨false, 127, 0⟩ (-2) 1 16 .floatingPoint
    bitmapIndicator := 0, bitmap := [0xB0], data := [0, 4, 40000] }

/-- The same grid, an unstructured one, with a product template the reader does not know. -/
def demoMsg2 : Msg :=
  { demoMsg with
    grid := .unstructured .missing 26 0 12345, product := .other 40 [1, 2, 3], coordinates := []
    packing := .other 40 [9, 9], bitmap := [], data := [] }

theorem demoMsg_ok : demoMsg.ok := by
  refine ⟨rfl, trivial, by decide, by decide, by decide, by decide, by decide, by decide, trivial,
    ?_, trivial, trivial, by decide, by decide, trivial, by decide, trivial, ?_, ?_, by decide,
    by decide, ?_, by decide, ?_, by decide, by decide, by decide, by decide, by decide⟩
  · unfold timeOk; decide
  · refine ⟨trivial, ⟨by decide, by decide⟩, ⟨by decide, by decide⟩, ⟨by decide, by decide⟩, ?_⟩
    decide
  · refine ⟨trivial, ?_⟩; decide
  · intro w hw
    simp only [demoMsg, List.mem_singleton] at hw
    subst hw
    exact ⟨by decide, by decide⟩
  · exact ⟨⟨by decide, by decide⟩, by decide, by decide, by decide, trivial⟩

theorem demoMsg2_ok : demoMsg2.ok := by
  refine ⟨rfl, trivial, by decide, by decide, by decide, by decide, by decide, by decide, trivial,
    ?_, trivial, trivial, by decide, by decide, trivial, by decide, trivial, ?_, ?_, by decide,
    by decide, ?_, by decide, ?_, by decide, by decide, by decide, by decide, by decide⟩
  · unfold timeOk; decide
  · refine ⟨trivial, ?_⟩; decide
  · exact ⟨by decide, by decide⟩
  · intro w hw
    simp [demoMsg2] at hw
  · exact ⟨by decide, by decide⟩

/-! ## C01 -/

/-- **C01.** Reading the encoding of a message followed by any bytes returns exactly the described
document and leaves exactly these bytes. -/
theorem C01_round_trip (m : Msg) (h : m.ok) (hk : m.product.known ∨ m.coordinates = [])
    (rest : List UInt8) :
    readSingleDoc (encode m ++ rest) = .ok (m.doc, rest) :=
  readSingleDoc_enc m h hk rest

example : readSingleDoc (encode demoMsg ++ [1, 2, 3]) = .ok (demoMsg.doc, [1, 2, 3]) :=
  C01_round_trip demoMsg demoMsg_ok (Or.inl trivial) _
example : readSingleDoc (encode demoMsg2 ++ [7]) = .ok (demoMsg2.doc, [7]) :=
  C01_round_trip demoMsg2 demoMsg2_ok (Or.inr rfl) _

/-- Two messages whose encodings are equal describe the same document. -/
theorem C01_encode_injective (m m' : Msg) (h : m.ok) (h' : m'.ok)
    (hk : m.product.known ∨ m.coordinates = []) (hk' : m'.product.known ∨ m'.coordinates = [])
    (e : encode m = encode m') : m.doc = m'.doc := by
  have h1 := C01_round_trip m h hk []
  have h2 := C01_round_trip m' h' hk' []
  rw [e, h2] at h1
  simpa using h1.symm

/-! ## C59: product templates unknown to the reader, with coordinate values -/

/-- A well-formed message with an unknown product template and two coordinate values. -/
def demoMsg3 : Msg := { demoMsg2 with coordinates := [⟨false, 127, 0⟩, ⟨false, 128, 0⟩] }

theorem demoMsg3_ok : demoMsg3.ok := by
  refine ⟨rfl, trivial, by decide, by decide, by decide, by decide, by decide, by decide, trivial,
    ?_, trivial, trivial, by decide, by decide, trivial, by decide, trivial, ?_, ?_, by decide,
    by decide, ?_, by decide, ?_, by decide, by decide, by decide, by decide, by decide⟩
  · unfold timeOk; decide
  · refine ⟨trivial, ?_⟩; decide
  · exact ⟨by decide, by decide⟩
  · intro w hw
    simp only [demoMsg3, List.mem_cons, List.not_mem_nil, or_false] at hw
    rcases hw with rfl | rfl <;> exact ⟨by decide, by decide⟩
  · exact ⟨by decide, by decide⟩

/-- **C59 is false for the code**: the bytes of the coordinate values are skipped together with the
unknown template and then read a second time from the following section, so that a well-formed
message is rejected. -/
theorem C59_counterexample : ∃ m : Msg, m.ok ∧ readSingleDoc (encode m) = .err :=
  ⟨demoMsg3, demoMsg3_ok, by decide +kernel⟩

/-- **C59, provable part**: without coordinate values a message with an unknown product template is
read correctly. -/
theorem C59_unknown_template_partial (m : Msg) (h : m.ok) (hc : m.coordinates = [])
    (rest : List UInt8) : readSingleDoc (encode m ++ rest) = .ok (m.doc, rest) :=
  C01_round_trip m h (Or.inr hc) rest

example : readSingleDoc (encode demoMsg2 ++ []) = .ok (demoMsg2.doc, []) :=
  C59_unknown_template_partial demoMsg2 demoMsg2_ok rfl []

/-! ## C02 -/

/-- **C02.** A concatenation of at least one message followed by bytes that are not a readable
message yields exactly the documents of the messages, in order. -/
theorem C02_multi (ms : List Msg) (hne : ms ≠ [])
    (hok : ∀ m ∈ ms, m.ok ∧ (m.product.known ∨ m.coordinates = []))
    (rest : List UInt8) (hrest : readSingleDoc rest = .err) :
    readMultiDoc (ms.flatMap encode ++ rest) = .ok (ms.map Msg.doc) := by
  have key : ∀ (ms : List Msg), (∀ m ∈ ms, m.ok ∧ (m.product.known ∨ m.coordinates = [])) →
      ∀ n, (ms.flatMap encode ++ rest).length < n →
      multiLoop n (ms.flatMap encode ++ rest) = .ok (ms.map Msg.doc) := by
    intro ms
    induction ms with
    | nil =>
      intro _ n hn
      rcases n with _ | n
      · omega
      · simp [multiLoop, hrest]
    | cons m ms ih =>
      intro hok n hn
      rcases n with _ | n
      · omega
      · obtain ⟨h1, h2⟩ := hok m (by simp)
        have h3 := C01_round_trip m h1 h2 (ms.flatMap encode ++ rest)
        have hl := stable_single.consumes readSingleDoc_nil h3
        rw [List.flatMap_cons, List.append_assoc] at hn ⊢
        rw [multiLoop, h3]
        simp only
        rw [ih (fun m hm => hok m (by simp [hm])) n (by omega)]
        rfl
  unfold readMultiDoc
  rw [key ms hok _ (by omega)]
  cases ms with
  | nil => exact absurd rfl hne
  | cons m ms => rfl

example : readMultiDoc (encode demoMsg ++ (encode demoMsg2 ++ [71, 82])) =
    .ok [demoMsg.doc, demoMsg2.doc] := by
  have := C02_multi [demoMsg, demoMsg2] (by simp)
    (by
      intro m hm
      simp only [List.mem_cons, List.not_mem_nil, or_false] at hm
      rcases hm with rfl | rfl
      · exact ⟨demoMsg_ok, Or.inl trivial⟩
      · exact ⟨demoMsg2_ok, Or.inr rfl⟩) [71, 82] (by decide +kernel)
  simpa using this

/-- **C02, second part.** If not even the first message is readable the outcome is an error. -/
theorem C02_first_unreadable (s : List UInt8) (h : readSingleDoc s = .err) :
    readMultiDoc s = .err := by
  unfold readMultiDoc
  rw [multiLoop, h]

example : readMultiDoc [71, 82, 73] = .err := C02_first_unreadable _ (by decide +kernel)

/-- **C02, third part.** A successful result is never empty, and its first element is what a single
read returns. -/
theorem C02_never_empty (s : List UInt8) (ds : List Document) (h : readMultiDoc s = .ok ds) :
    ∃ d ds' r, ds = d :: ds' ∧ readSingleDoc s = .ok (d, r) := by
  unfold readMultiDoc at h
  rw [multiLoop] at h
  cases hs : readSingleDoc s with
  | ok p =>
    obtain ⟨d, r⟩ := p
    rw [hs] at h
    simp only at h
    cases hm : multiLoop s.length r with
    | ok ds' =>
      rw [hm] at h
      simp only [Res.ok.injEq] at h
      exact ⟨d, ds', r, h.symm, rfl⟩
    | err => rw [hm] at h; simp at h
    | panic => rw [hm] at h; simp at h
  | err => rw [hs] at h; simp at h
  | panic => rw [hs] at h; simp at h

example : ∃ ds, readMultiDoc (encode demoMsg) = .ok ds := by
  have := C02_multi [demoMsg] (by simp)
    (by
      intro m hm
      simp only [List.mem_singleton] at hm
      subst hm
      exact ⟨demoMsg_ok, Or.inl trivial⟩) [] (by decide +kernel)
  exact ⟨_, by simpa using this⟩

/-- Reading several messages is the iteration of reading one: with one readable message in front, the
result is this document followed by the documents of the remaining stream (none if the remaining
stream is not readable). -/
theorem C02_step (s r : List UInt8) (d : Document) (h : readSingleDoc s = .ok (d, r)) :
    readMultiDoc s = (match readMultiDoc r with
      | .ok ds => .ok (d :: ds)
      | .err => .ok [d]
      | .panic => .panic) := by
  have hl := stable_single.consumes readSingleDoc_nil h
  have hne : ∀ n t, multiLoop n t ≠ .err := by
    intro n
    induction n with
    | zero => intro t; simp [multiLoop]
    | succ n ih =>
      intro t
      rw [multiLoop]
      cases ht : readSingleDoc t with
      | ok p =>
        obtain ⟨e, t'⟩ := p
        simp only
        cases hm : multiLoop n t' with
        | ok _ => simp
        | err => exact absurd hm (ih t')
        | panic => simp
      | err => simp
      | panic => simp
  unfold readMultiDoc
  rw [multiLoop, h]
  simp only
  rw [multiLoop_fuel s.length r hl]
  cases hm : multiLoop (r.length + 1) r with
  | ok ds => cases ds <;> rfl
  | err => exact absurd hm (hne _ _)
  | panic => rfl

example : ∃ s r d, readSingleDoc s = .ok (d, r) ∧ r ≠ [] :=
  ⟨_, [1, 2, 3], _, C01_round_trip demoMsg demoMsg_ok (Or.inl trivial) [1, 2, 3], by simp⟩

/-! ## C03 -/

/-- **C03.** If a byte string is accepted as a message, then the consumed bytes `p` are a prefix of
it, the same bytes are accepted in front of any continuation, and every strict prefix of them is
rejected with an error. -/
theorem C03_truncated (s r : List UInt8) (d : Document) (h : readSingleDoc s = .ok (d, r)) :
    ∃ p, s = p ++ r ∧ (∀ r', readSingleDoc (p ++ r') = .ok (d, r')) ∧
      ∀ n, n < p.length → readSingleDoc (p.take n) = .err := by
  obtain ⟨p, h1, h2, h3⟩ := stable_single s d r h
  refine ⟨p, h1, h2, fun n hn => h3 _ (List.take_prefix _ _) ?_⟩
  intro he
  have := congrArg List.length he
  rw [List.length_take] at this
  omega

/-- **C03** for encoded messages: every truncation of an encoded message is rejected. -/
theorem C03_truncated_encoding (m : Msg) (h : m.ok) (hk : m.product.known ∨ m.coordinates = [])
    (n : Nat) (hn : n < (encode m).length) : readSingleDoc ((encode m).take n) = .err := by
  have h1 := C01_round_trip m h hk []
  obtain ⟨p, h2, -, h3⟩ := C03_truncated _ _ _ h1
  simp only [List.append_nil] at h2
  subst h2
  exact h3 n hn

example : readSingleDoc ((encode demoMsg).take 100) = .err :=
  C03_truncated_encoding demoMsg demoMsg_ok (Or.inl trivial) 100 (by decide +kernel)

/-! ## C60: damaged messages inside a multi-message file -/

/-- **C60 is false for the code**: for every pair of messages, a file with both in which the second
one is cut off anywhere is read successfully as just the first one. -/
theorem C60_counterexample (m m' : Msg) (h : m.ok) (h' : m'.ok)
    (hk : m.product.known ∨ m.coordinates = []) (hk' : m'.product.known ∨ m'.coordinates = [])
    (n : Nat) (hn : n < (encode m').length) :
    readMultiDoc (encode m ++ (encode m').take n) = .ok [m.doc] := by
  have := C02_multi [m] (by simp) (by simpa using ⟨h, hk⟩) _
    (C03_truncated_encoding m' h' hk' n hn)
  simpa using this

example : readMultiDoc (encode demoMsg ++ (encode demoMsg2).take 50) = .ok [demoMsg.doc] :=
  C60_counterexample demoMsg demoMsg2 demoMsg_ok demoMsg2_ok (Or.inl trivial) (Or.inr rfl) 50
    (by decide)

/-- **C60, provable part**: damage to the first message is reported. -/
theorem C60_first_message_partial (m : Msg) (h : m.ok) (hk : m.product.known ∨ m.coordinates = [])
    (n : Nat) (hn : n < (encode m).length) : readMultiDoc ((encode m).take n) = .err :=
  C02_first_unreadable _ (C03_truncated_encoding m h hk n hn)

example : readMultiDoc ((encode demoMsg).take 100) = .err :=
  C60_first_message_partial demoMsg demoMsg_ok (Or.inl trivial) 100 (by decide +kernel)

/-! ## C04 -/

theorem stable_self {α : Type} {m : Rd α} (hm : Rd.Stable m) {s r : List UInt8} {a : α}
    (h : m s = .ok (a, r)) : ∃ p, s = p ++ r ∧ m p = .ok (a, []) := by
  obtain ⟨p, h1, h2, -⟩ := hm s a r h
  exact ⟨p, h1, by simpa using h2 []⟩

/-- **C04.** Every accepted message consists of nine consecutive sections: a 16-byte one starting
with `GRIB`, seven carrying their own section numbers, and `7777`; the rest of the input is
returned as unread.  Sections 1, 2 and 6 extend exactly over their declared length, section 7 over
its declared length up to an odd last byte. -/
theorem C04_framing (s r : List UInt8) (d : Document) (h : readSingleDoc s = .ok (d, r)) :
    ∃ s0 s1 s2 s3 s4 s5 s6 s7 : List UInt8,
      s = s0 ++ s1 ++ s2 ++ s3 ++ s4 ++ s5 ++ s6 ++ s7 ++ [0x37, 0x37, 0x37, 0x37] ++ r ∧
      s0.length = 16 ∧ s0.take 4 = [0x47, 0x52, 0x49, 0x42] ∧
      HasNumber 1 s1 ∧ HasNumber 2 s2 ∧ HasNumber 3 s3 ∧ HasNumber 4 s4 ∧ HasNumber 5 s5 ∧
      HasNumber 6 s6 ∧ HasNumber 7 s7 ∧
      declaredLength s1 = s1.length ∧ declaredLength s2 = s2.length ∧ declaredLength s6 = s6.length ∧
      (declaredLength s7 = s7.length ∨ declaredLength s7 = s7.length + 1) ∧
      d.section1.length = declaredLength s1 ∧ d.section2.length = declaredLength s2 ∧
      d.section3.length = declaredLength s3 ∧ d.section4.length = declaredLength s4 ∧
      d.section5.length = declaredLength s5 ∧ d.section6.length = declaredLength s6 ∧
      d.section7.length = declaredLength s7 := by
  unfold readSingleDoc at h
  obtain ⟨d0, t0, h0, h⟩ := Rd.bind_ok_iff.mp h
  obtain ⟨d1, t1, h1, h⟩ := Rd.bind_ok_iff.mp h
  obtain ⟨d2, t2, h2, h⟩ := Rd.bind_ok_iff.mp h
  obtain ⟨d3, t3, h3, h⟩ := Rd.bind_ok_iff.mp h
  obtain ⟨d4, t4, h4, h⟩ := Rd.bind_ok_iff.mp h
  obtain ⟨d5, t5, h5, h⟩ := Rd.bind_ok_iff.mp h
  obtain ⟨d6, t6, h6, h⟩ := Rd.bind_ok_iff.mp h
  obtain ⟨d7, t7, h7, h⟩ := Rd.bind_ok_iff.mp h
  obtain ⟨d8, t8, h8, h⟩ := Rd.bind_ok_iff.mp h
  simp only [Rd.pure_apply, Res.ok.injEq, Prod.mk.injEq] at h
  obtain ⟨rfl, rfl⟩ := h
  obtain ⟨s0, e0, h0⟩ := stable_self stable_section0 h0
  obtain ⟨s1, e1, h1⟩ := stable_self stable_section1 h1
  obtain ⟨s2, e2, h2⟩ := stable_self stable_section2 h2
  obtain ⟨s3, e3, h3⟩ := stable_self stable_section3 h3
  obtain ⟨s4, e4, h4⟩ := stable_self stable_section4 h4
  obtain ⟨s5, e5, h5⟩ := stable_self stable_section5 h5
  obtain ⟨s6, e6, h6⟩ := stable_self stable_section6 h6
  obtain ⟨s7, e7, h7⟩ := stable_self stable_section7 h7
  have e8 := section8_inv h8
  have i0 := section0_inv h0
  have i1 := section1_inv h1
  have i2 := section2_inv h2
  have i3 := section3_inv h3
  have i4 := section4_inv h4
  have i5 := section5_inv h5
  have i6 := section6_inv h6
  have i7 := section7_inv h7
  simp only [List.length_nil] at i0 i1 i2 i6 i7
  refine ⟨s0, s1, s2, s3, s4, s5, s6, s7, ?_, by omega, i0.2, i1.1, i2.1, i3.1, i4.1, i5.1, i6.1,
    i7.1, by omega, by omega, by omega, by omega, i1.2.1, i2.2.1, i3.2, i4.2, i5.2.1, i6.2.1,
    i7.2.1⟩
  rw [e0, e1, e2, e3, e4, e5, e6, e7, e8]
  simp [endMagic]

example : ∃ s r d, readSingleDoc s = .ok (d, r) :=
  ⟨_, _, _, C01_round_trip demoMsg demoMsg_ok (Or.inl trivial) [1, 2, 3]⟩

/-! ## C05 -/

/-- A message in which the local-use section declares length 3. -/
def crashBytes : List UInt8 :=
  encSection0 demoMsg ++ encSection1 demoMsg ++ [0, 0, 0, 3, 2]

/-- A message whose reference date is 30 February. -/
def crashDateBytes : List UInt8 :=
  encSection0 demoMsg ++ encSection1 { demoMsg with time := ⟨2024, 2, 30, 0, 0, 0⟩ }

/-- **C05 is false for the code**: there are byte strings on which reading panics - a section length
smaller than the fixed part, or an impossible reference date. -/
theorem C05_counterexample :
    readSingleDoc crashBytes = .panic ∧ readSingleDoc crashDateBytes = .panic := by
  constructor <;> decide +kernel

/-- Reading with a panic means that the sections before some section `k` were accepted and the stream
at the start of section `k` is one of the hazards of `Spec`. -/
theorem C05_cause (s : List UInt8) (h : readSingleDoc s = .panic) :
    ∃ k pre rest, s = pre ++ rest ∧ 16 ≤ pre.length ∧ pre.take 4 = [0x47, 0x52, 0x49, 0x42] ∧
      Hazard k rest := by
  have pfx : ∀ {s0 t : List UInt8}, s0.length = 16 → s0.take 4 = gribMagic →
      16 ≤ (s0 ++ t).length ∧ (s0 ++ t).take 4 = [0x47, 0x52, 0x49, 0x42] := by
    intro s0 t hl hm
    refine ⟨by simp [hl], ?_⟩
    rw [List.take_append_of_le_length (by omega)]
    exact hm
  unfold readSingleDoc at h
  rcases Rd.bind_panic_iff.mp h with h | ⟨d0, t0, h0, q0⟩
  · exact absurd h (safe_section0 _)
  obtain ⟨s0, rfl, g0⟩ := stable_self stable_section0 h0
  have i0 := section0_inv g0
  rw [List.length_nil, Nat.zero_add] at i0
  rcases Rd.bind_panic_iff.mp q0 with h | ⟨d1, t1, h1, q1⟩
  · exact ⟨1, s0, _, rfl, by omega, i0.2, (section1_panic_iff _).mp h⟩
  obtain ⟨s1, rfl, g1⟩ := stable_self stable_section1 h1
  rcases Rd.bind_panic_iff.mp q1 with h | ⟨d2, t2, h2, q2⟩
  · exact ⟨2, s0 ++ s1, t1, by simp, (pfx i0.1 i0.2).1, (pfx i0.1 i0.2).2,
      (section2_panic_iff _).mp h⟩
  obtain ⟨s2, rfl, g2⟩ := stable_self stable_section2 h2
  rcases Rd.bind_panic_iff.mp q2 with h | ⟨d3, t3, h3, q3⟩
  · exact absurd h (safe_section3 _)
  obtain ⟨s3, rfl, g3⟩ := stable_self stable_section3 h3
  rcases Rd.bind_panic_iff.mp q3 with h | ⟨d4, t4, h4, q4⟩
  · exact ⟨4, s0 ++ (s1 ++ (s2 ++ s3)), t3, by simp, (pfx i0.1 i0.2).1, (pfx i0.1 i0.2).2,
      (section4_panic_iff _).mp h⟩
  obtain ⟨s4, rfl, g4⟩ := stable_self stable_section4 h4
  rcases Rd.bind_panic_iff.mp q4 with h | ⟨d5, t5, h5, q5⟩
  · exact ⟨5, s0 ++ (s1 ++ (s2 ++ (s3 ++ s4))), t4, by simp, (pfx i0.1 i0.2).1, (pfx i0.1 i0.2).2,
      (section5_panic_iff _).mp h⟩
  obtain ⟨s5, rfl, g5⟩ := stable_self stable_section5 h5
  rcases Rd.bind_panic_iff.mp q5 with h | ⟨d6, t6, h6, q6⟩
  · exact ⟨6, s0 ++ (s1 ++ (s2 ++ (s3 ++ (s4 ++ s5)))), t5, by simp, (pfx i0.1 i0.2).1,
      (pfx i0.1 i0.2).2, (section6_panic_iff _).mp h⟩
  obtain ⟨s6, rfl, g6⟩ := stable_self stable_section6 h6
  rcases Rd.bind_panic_iff.mp q6 with h | ⟨d7, t7, h7, q7⟩
  · exact ⟨7, s0 ++ (s1 ++ (s2 ++ (s3 ++ (s4 ++ (s5 ++ s6))))), t6, by simp, (pfx i0.1 i0.2).1,
      (pfx i0.1 i0.2).2, (section7_panic_iff _).mp h⟩
  rcases Rd.bind_panic_iff.mp q7 with h | ⟨d8, t8, h8, q8⟩
  · exact absurd h (safe_section8 _)
  · simp at q8

example : ∃ s, readSingleDoc s = .panic := ⟨crashBytes, C05_counterexample.1⟩

/-- **C05, provable part.** A byte string in which no position after the first 16 bytes is the start
of a hazard (a section shorter than its fixed part, or an impossible date) is read with a document
or an error as the outcome. -/
theorem C05_no_panic_partial (s : List UInt8)
    (h : ∀ n, 16 ≤ n → n ≤ s.length → ∀ k, ¬ Hazard k (s.drop n)) :
    (∃ d r, readSingleDoc s = .ok (d, r)) ∨ readSingleDoc s = .err := by
  cases hs : readSingleDoc s with
  | ok p => exact Or.inl ⟨p.1, p.2, rfl⟩
  | err => exact Or.inr rfl
  | panic =>
    exfalso
    obtain ⟨k, pre, rest, rfl, h1, -, h2⟩ := C05_cause s hs
    apply h pre.length h1 (by simp) k
    simpa using h2

/-- Data that does not start with `GRIB` is rejected without a crash. -/
theorem C05_not_grib_partial (s : List UInt8) (h : s.take 4 ≠ [0x47, 0x52, 0x49, 0x42]) :
    readSingleDoc s = .err := by
  cases hs : readSingleDoc s with
  | ok p =>
    obtain ⟨d, r⟩ := p
    obtain ⟨s0, s1, s2, s3, s4, s5, s6, s7, e, hl, hm, -⟩ := C04_framing s r d hs
    exfalso
    apply h
    rw [e]
    simp only [List.append_assoc]
    rw [List.take_append_of_le_length (by omega)]
    exact hm
  | err => rfl
  | panic =>
    obtain ⟨k, pre, rest, rfl, h1, h2, -⟩ := C05_cause s hs
    exfalso
    apply h
    rw [List.take_append_of_le_length (by omega)]
    exact h2

example : ([1, 2, 3, 4, 5] : List UInt8).take 4 ≠ [0x47, 0x52, 0x49, 0x42] := by decide

/-- The encodings of well-formed messages, complete or cut off anywhere, never crash the reader. -/
theorem C05_truncated_message_partial (m : Msg) (h : m.ok)
    (hk : m.product.known ∨ m.coordinates = []) (n : Nat) :
    readSingleDoc ((encode m).take n) ≠ .panic := by
  rcases Nat.lt_or_ge n (encode m).length with hn | hn
  · rw [C03_truncated_encoding m h hk n hn]; simp
  · rw [List.take_of_length_le hn]
    have := C01_round_trip m h hk []
    rw [List.append_nil] at this
    rw [this]; simp

example : readSingleDoc ((encode demoMsg).take 60) ≠ .panic :=
  C05_truncated_message_partial demoMsg demoMsg_ok (Or.inl trivial) 60

end Verif.Props
