import Verif.Lemmas.Memory
import Verif.Lemmas.Decode
import Verif.Props.Grib2Read
import Verif.Props.Decode
import Verif.Props.NetCdf

/-!
# C174: how much memory reading a file takes

The sizes of the buffers are those noted by the readers of `Model/Memory.lean`.
-/

namespace Verif.Props

open Verif Grib2 Spec.Grib2 Spec.Decode

/-! ## GRIB2: buffers -/

/-- C174, buffers: the buffers made while reading a GRIB2 file, together, are not larger than twice the file and one buffer of
four gigabytes; while a message is read with success they are not larger than twice the message. -/
theorem C174_buffers_partial (s : List UInt8) :
    (Memory.readMultiDoc s).2 = readMultiDoc s ∧
    (Memory.readMultiDoc s).1.sum ≤ 2 * s.length + 2 ^ 32 ∧
    (Memory.readSingleDoc s).2 = readSingleDoc s ∧
    ∀ d r, readSingleDoc s = .ok (d, r) → (Memory.readSingleDoc s).1.sum ≤ 2 * (s.length - r.length) := by
  have e : (Memory.readSingleDoc s).2 = readSingleDoc s := congrFun Memory.erase_single s
  refine ⟨Memory.erase_multi s, Memory.frugal_loop _ s, e, fun d r h => ?_⟩
  have := Memory.frugal_single.ok s d r (e.trans h)
  omega

example : (Memory.readMultiDoc (encode demoMsg)).1.sum ≤ 2 * (encode demoMsg).length + 2 ^ 32 ∧
    (Memory.readMultiDoc (encode demoMsg)).1 = [4, 4, 2, 0, 3, 23, 4, 1, 6, 4, 4, 4] :=
  ⟨(C174_buffers_partial _).2.1, by decide +kernel⟩

/-! ## GRIB2: values -/

theorem section6_length {s r : List UInt8} {x : Section6} (h : readSection6 s = .ok (x, r)) :
    x.bitmap.length + r.length ≤ s.length := by
  unfold readSection6 at h
  obtain ⟨l, s1, h1, h⟩ := Rd.bind_ok_iff.mp h
  obtain ⟨n, s2, h2, h⟩ := Rd.bind_ok_iff.mp h
  obtain ⟨i, s3, h3, h⟩ := Rd.bind_ok_iff.mp h
  obtain ⟨b1, k1, -, -⟩ := Rd.uint_ok_iff.mp h1
  obtain ⟨b2, k2, -, -⟩ := Rd.uint_ok_iff.mp h2
  obtain ⟨b3, k3, -, -⟩ := Rd.uint_ok_iff.mp h3
  rw [Rd.ite_apply] at h
  split at h
  · cases h
  · obtain ⟨b, s4, h4, h⟩ := Rd.bind_ok_iff.mp h
    obtain ⟨k4, -⟩ := Rd.bytes_ok_iff.mp h4
    rw [Rd.ite_apply] at h
    split at h
    · cases h
    · cases h
      simp only [k1, k2, k3, k4, List.length_append]
      omega

theorem section7_length {s r : List UInt8} {x : Section7} (h : readSection7 s = .ok (x, r)) :
    2 * x.dataPoints.length + r.length ≤ s.length := by
  unfold readSection7 at h
  obtain ⟨l, s1, h1, h⟩ := Rd.bind_ok_iff.mp h
  obtain ⟨n, s2, h2, h⟩ := Rd.bind_ok_iff.mp h
  obtain ⟨b1, k1, -, -⟩ := Rd.uint_ok_iff.mp h1
  obtain ⟨b2, k2, -, -⟩ := Rd.uint_ok_iff.mp h2
  rw [Rd.ite_apply] at h
  split at h
  · cases h
  · obtain ⟨b, s4, h4, h⟩ := Rd.bind_ok_iff.mp h
    obtain ⟨e1, e2⟩ := Mem.times_uint_length h4
    rw [Rd.ite_apply] at h
    split at h
    · cases h
    · cases h
      simp only [k1, k2, List.length_append]
      omega

theorem message_length {s r : List UInt8} {d : Document} (h : readSingleDoc s = .ok (d, r)) :
    d.section6.bitmap.length + 2 * d.section7.dataPoints.length ≤ s.length - r.length := by
  have le : ∀ {α : Type} {m : Rd α} {s r : List UInt8} {a : α}, Rd.Stable m → m s = .ok (a, r) → r.length ≤ s.length := by
    intro α m s r a hm e
    obtain ⟨p, rfl, -⟩ := hm s a r e
    simp
  unfold readSingleDoc at h
  obtain ⟨d0, t0, h0, h⟩ := Rd.bind_ok_iff.mp h
  obtain ⟨d1, t1, h1, h⟩ := Rd.bind_ok_iff.mp h
  obtain ⟨d2, t2, h2, h⟩ := Rd.bind_ok_iff.mp h
  obtain ⟨d3, t3, h3, h⟩ := Rd.bind_ok_iff.mp h
  obtain ⟨d4, t4, h4, h⟩ := Rd.bind_ok_iff.mp h
  obtain ⟨d5, t5, h5, h⟩ := Rd.bind_ok_iff.mp h
  obtain ⟨d6, t6, h6, h⟩ := Rd.bind_ok_iff.mp h
  obtain ⟨d7, t7, h7, h⟩ := Rd.bind_ok_iff.mp h
  obtain ⟨d8, t8, h8, h⟩ := Rd.bind_ok_iff.mp h
  simp only [Rd.pure_apply, Res.ok.injEq, Prod.mk.injEq] at h
  obtain ⟨rfl, rfl⟩ := h
  have a0 := le stable_section0 h0
  have a1 := le stable_section1 h1
  have a2 := le stable_section2 h2
  have a3 := le stable_section3 h3
  have a4 := le stable_section4 h4
  have a5 := le stable_section5 h5
  have a6 := section6_length h6
  have a7 := section7_length h7
  have a8 := le stable_section8 h8
  simp only
  omega

/-- C174, values: a message whose data section is not empty has at most eight values for each of its bytes. -/
theorem C174_values_partial {T : Type} (s r : List UInt8) (d : Document) (missing : T) (transform : Fl → T) (vs : List T)
    (h : readSingleDoc s = .ok (d, r)) (hv : calculateDataPoints d missing transform = .ok vs) (hd : d.section7.dataPoints ≠ []) :
    vs.length ≤ 8 * (s.length - r.length) := by
  have hl := message_length h
  unfold calculateDataPoints at hv
  split at hv
  · rename_i t ht
    have hne : d.section7.dataPoints.isEmpty = false := by
      cases hx : d.section7.dataPoints with
      | nil => exact absurd hx hd
      | cons a as => rfl
    simp only [hne, Bool.false_eq_true, if_false] at hv
    obtain ⟨h1, h2⟩ := decodeLoop_spec d.section6.bitmap d.section7.dataPoints (fun x => transform (unpackValue t x)) missing
      d.section3.numberOfDatapoints 0
    have r0 : rank d.section6.bitmap 0 = 0 := by rfl
    rw [r0] at h1 h2
    by_cases hc : (d.section6.bitmap = [] ∨ d.section3.numberOfDatapoints = 0 ∨
        0 + d.section3.numberOfDatapoints ≤ 8 * d.section6.bitmap.length) ∧
        (rank d.section6.bitmap (0 + d.section3.numberOfDatapoints) ≤ d.section7.dataPoints.length ∨
          rank d.section6.bitmap (0 + d.section3.numberOfDatapoints) = 0)
    · obtain ⟨vs', e, hn, -⟩ := h1 hc
      rw [hv] at e
      cases e
      rw [hn]
      rcases hc.1 with hb | hb | hb
      · have hr : rank d.section6.bitmap (0 + d.section3.numberOfDatapoints) = d.section3.numberOfDatapoints := by
          rw [hb]
          unfold rank
          rw [show present ([] : List UInt8) = fun _ => true from rfl]
          simp
        rcases hc.2 with h3 | h3 <;> omega
      · omega
      · omega
    · rw [h2 hc] at hv
      cases hv
  · cases hv

example : ∃ d vs, readSingleDoc (encode demoMsg) = .ok (d, []) ∧ calculateDataPoints d Fl.nan id = .ok vs ∧
    d.section7.dataPoints ≠ [] ∧ vs.length = 4 := by
  have h := C01_round_trip demoMsg demoMsg_ok (Or.inl trivial) []
  rw [List.append_nil] at h
  exact ⟨_, _, h, rfl, by decide, rfl⟩

/-! ## The file that is small and asks for much -/

/-- The beginning of a message: sixteen bytes, then a section of twenty-one bytes that claims to be as long as a section can be. -/
def longSection : List UInt8 :=
  [0x47, 0x52, 0x49, 0x42, 0, 0, 0, 2, 0, 0, 0, 0, 0, 0, 0, 37,
   0xFF, 0xFF, 0xFF, 0xFF, 1, 0, 78, 0, 255, 19, 1, 1, 0x07, 0xE8, 2, 29, 12, 0, 0, 0, 1]

/-- A message that announces as many points as can be announced, and has no data. -/
def manyPoints : Msg :=
  { demoMsg with
    numberOfPoints := 4294967295
    grid := .latLon { shape := .sphericalRadius6371229, radius := ⟨0, 0⟩, major := ⟨0, 0⟩
                      minor := ⟨0, 0⟩, ni := 65537, nj := 65535, basicAngle := 0, subdivision := 0
                      la1 := 43000000, lo1 := 5000000, resolution := 48, la2 := 45000000
                      lo2 := 7000000, di := 1000000, dj := 1000000, scanning := 64 }
    coordinates := [], numberOfValues := 0, bitmap := [], data := [] }

theorem manyPoints_ok : manyPoints.ok := by
  refine ⟨rfl, trivial, by decide, by decide, by decide, by decide, by decide, by decide, trivial,
    ?_, trivial, trivial, by decide, by decide, trivial, by decide, trivial, ?_, ?_, by decide,
    by decide, ?_, by decide, ?_, by decide, by decide, by decide, by decide, by decide⟩
  · unfold timeOk; decide
  · refine ⟨trivial, ⟨by decide, by decide⟩, ⟨by decide, by decide⟩, ⟨by decide, by decide⟩, ?_⟩
    decide
  · refine ⟨trivial, ?_⟩; decide
  · intro w hw
    simp [manyPoints] at hw
  · exact ⟨⟨by decide, by decide⟩, by decide, by decide, by decide, trivial⟩

/-- C174, violated: a file of 37 bytes makes the reader ask for a buffer of four gigabytes; and a well-formed message of less than
200 bytes is read into a grid of 4294967295 values (sixteen gigabytes of `f32`). -/
theorem C174_counterexample :
    (longSection.length = 37 ∧ (Memory.readMultiDoc longSection).1 = [4, 4, 2, 4294967274] ∧ readMultiDoc longSection = .err) ∧
    ∃ s d, s.length < 200 ∧ readSingleDoc s = .ok (d, []) ∧
      ∀ {T : Type} (missing : T) (transform : Fl → T), ∃ g, createRegularGrid d missing transform = .ok g ∧
        g.values.length = 4294967295 := by
  refine ⟨⟨rfl, by decide +kernel, by decide +kernel⟩, encode manyPoints, manyPoints.doc, by decide +kernel, ?_, fun missing transform => ?_⟩
  · have h := C01_round_trip manyPoints manyPoints_ok (Or.inl trivial) []
    rwa [List.append_nil] at h
  · have h1 : calculateDataPoints manyPoints.doc missing transform = .ok (List.replicate 4294967295 missing) := rfl
    have h2 : ∃ e, getDimensionsAndExtent manyPoints.doc = .ok ((65537, 65535), e) := by
      refine ⟨⟨⟨.fin 43, .fin 5⟩, ⟨.fin 45, .fin 7⟩⟩, ?_⟩
      decide +kernel
    obtain ⟨e, h2⟩ := h2
    refine ⟨LatLonValueGrid.new (List.replicate 4294967295 missing) missing (65537, 65535) e, ?_, ?_⟩
    · unfold createRegularGrid
      rw [h1, h2]
      rfl
    · show (List.replicate 4294967295 missing).length = 4294967295
      exact List.length_replicate

/-! ## NetCDF -/

end Verif.Props

namespace Verif.NetCdf

open Rd

theorem times_all {α : Type} {P : α → Prop} {m : Rd α} (h : ∀ s a r, m s = .ok (a, r) → P a) {n : Nat} {s r : List UInt8} {v : List α}
    (e : times m n s = .ok (v, r)) : ∀ a ∈ v, P a := by
  induction n generalizing s v with
  | zero =>
    simp only [times, pure_apply, Res.ok.injEq, Prod.mk.injEq] at e
    obtain ⟨rfl, -⟩ := e
    simp
  | succ n ih =>
    unfold times at e
    obtain ⟨a, s1, h1, e⟩ := bind_ok_iff.mp e
    obtain ⟨as, s2, h2, e⟩ := bind_ok_iff.mp e
    simp only [pure_apply, Res.ok.injEq, Prod.mk.injEq] at e
    obtain ⟨rfl, rfl⟩ := e
    intro x hx
    rcases List.mem_cons.mp hx with rfl | hx
    · exact h _ _ _ h1
    · exact ih h2 x hx

theorem var_size {s r : List UInt8} {v : Var} (h : readVar crash s = .ok (v, r)) : v.size < 2 ^ 32 := by
  unfold readVar at h
  obtain ⟨_, s1, -, h⟩ := bind_ok_iff.mp h
  obtain ⟨_, s2, -, h⟩ := bind_ok_iff.mp h
  obtain ⟨_, s3, -, h⟩ := bind_ok_iff.mp h
  obtain ⟨_, s4, -, h⟩ := bind_ok_iff.mp h
  obtain ⟨_, s5, -, h⟩ := bind_ok_iff.mp h
  obtain ⟨z, s6, h6, h⟩ := bind_ok_iff.mp h
  obtain ⟨_, s7, -, h⟩ := bind_ok_iff.mp h
  simp only [pure_apply, Res.ok.injEq, Prod.mk.injEq] at h
  obtain ⟨rfl, -⟩ := h
  obtain ⟨b, -, hb, rfl⟩ := uint_ok_iff.mp h6
  have := beNat_lt b
  rw [hb] at this
  simp only
  omega

theorem header_sizes {s r : List UInt8} {x : Header} (h : readHeader s = .ok (x, r)) : ∀ v ∈ x.varList, v.size < 2 ^ 32 := by
  unfold readHeader readHeaderWith at h
  obtain ⟨_, s1, -, h⟩ := bind_ok_iff.mp h
  obtain ⟨_, s2, -, h⟩ := bind_ok_iff.mp h
  obtain ⟨_, s3, -, h⟩ := bind_ok_iff.mp h
  obtain ⟨_, s4, -, h⟩ := bind_ok_iff.mp h
  obtain ⟨vl, s5, h5, h⟩ := bind_ok_iff.mp h
  simp only [pure_apply, Res.ok.injEq, Prod.mk.injEq] at h
  obtain ⟨rfl, -⟩ := h
  unfold readVarList readList at h5
  obtain ⟨_, t1, -, h5⟩ := bind_ok_iff.mp h5
  obtain ⟨_, t2, -, h5⟩ := bind_ok_iff.mp h5
  rw [Rd.ite_apply] at h5
  split at h5
  · cases h5
    simp
  · rw [Rd.ite_apply] at h5
    split at h5
    · exact times_all (P := fun v : Var => v.size < 2 ^ 32) (fun s a r h => var_size h) h5
    · cases h5

theorem findVar_mem {name : List UInt8} {l : List Var} {v : Var} (h : findVar name l = some v) : v ∈ l := by
  induction l with
  | nil => cases h
  | cons a as ih =>
    unfold findVar at h
    split at h
    · cases h; exact List.mem_cons_self
    · exact List.mem_cons_of_mem _ (ih h)

theorem data_buffers {file : List UInt8} {x : Header} (hx : ∀ v ∈ x.varList, v.size < 2 ^ 32) (name : List UInt8) :
    (∀ d, (Memory.readDataByVar file x name).2 = .ok d → (Memory.readDataByVar file x name).1.sum ≤ 2 * file.length) ∧
    (Memory.readDataByVar file x name).1.sum ≤ 2 * file.length + 2 ^ 35 := by
  unfold Memory.readDataByVar
  cases hf : findVar name x.varList with
  | none => exact ⟨fun d h => (by cases h), (by simp)⟩
  | some v =>
    simp only
    split
    · exact ⟨fun d h => (by cases h), (by simp)⟩
    · have hn : entryCount v < 2 ^ 32 := Nat.lt_of_le_of_lt (Nat.div_le_self _ _) (hx v (findVar_mem hf))
      have hq := Memory.frugal_values hn v.ncType
      have hl : (file.drop v.begin).length ≤ file.length := by rw [List.length_drop]; omega
      refine ⟨fun d h => ?_, ?_⟩
      · simp only at h
        split at h <;> rename_i h1
        · have := hq.ok _ _ _ h1
          simp only
          omega
        · cases h
        · cases h
      · have := hq.any (file.drop v.begin)
        have hG : Memory.G = 2 ^ 35 := rfl
        simp only
        omega

theorem map_buffers {file : List UInt8} {x : Header} (hx : ∀ v ∈ x.varList, v.size < 2 ^ 32) (names : List (List UInt8))
    (acc : List (List UInt8 × Values)) :
    (Memory.readDataMap file x acc names).1.sum ≤ 2 * names.length * file.length + 2 ^ 35 := by
  induction names generalizing acc with
  | nil => simp [Memory.readDataMap]
  | cons n ns ih =>
    obtain ⟨h1, h2⟩ := data_buffers (file := file) hx n
    have e : 2 * (n :: ns).length * file.length = 2 * ns.length * file.length + 2 * file.length := by
      rw [List.length_cons]; ring
    unfold Memory.readDataMap
    rw [e]
    split
    · rename_i d hd
      have a1 := h1 d hd
      have a2 := ih ((n, d) :: acc)
      simp only [List.sum_append]
      omega
    · simp only; omega
    · simp only; omega

/-- C174, NetCDF: the buffers made while reading variables of a NetCDF file, together, are not larger than twice the file
for the header and for each variable, and one buffer of 32 gigabytes. -/
theorem C174_netcdf_partial (file : List UInt8) (names : List (List UInt8)) :
    (Memory.readDocument file names).2 = readDocument file names ∧
    (Memory.readDocument file names).1.sum ≤ 2 * (names.length + 1) * file.length + 2 ^ 35 := by
  refine ⟨Memory.erase_document file names, ?_⟩
  have e : (Memory.readHeader file).2 = readHeader file := congrFun Memory.erase_header file
  have e2 : 2 * (names.length + 1) * file.length = 2 * names.length * file.length + 2 * file.length := by ring
  rw [e2]
  unfold Memory.readDocument
  split <;> rename_i h
  · have a1 := Memory.frugal_header.ok _ _ _ h
    rw [e] at h
    have a2 := map_buffers (file := file) (header_sizes h) names []
    simp only [List.sum_append]
    omega
  · have := Memory.frugal_header.any file
    have hG : Memory.G = 2 ^ 35 := rfl
    simp only
    omega
  · have := Memory.frugal_header.any file
    have hG : Memory.G = 2 ^ 35 := rfl
    simp only
    omega

example : (Memory.readDocument (Spec.NetCdf.encodeHeader Props.demoHeader ++ Props.demoTail) [clat, clon]).1 =
      [3, 3, 4, 4, 2, 2, 5, 5, 4, 4, 1, 1, 6, 4, 4, 16, 16] ∧
    ∃ d, readDocument (Spec.NetCdf.encodeHeader Props.demoHeader ++ Props.demoTail) [clat, clon] = .ok d := by
  refine ⟨by decide +kernel, ?_⟩
  have h : (match readDocument (Spec.NetCdf.encodeHeader Props.demoHeader ++ Props.demoTail) [clat, clon] with
    | .ok _ => true
    | _ => false) = true := by decide +kernel
  generalize readDocument (Spec.NetCdf.encodeHeader Props.demoHeader ++ Props.demoTail) [clat, clon] = x at h ⊢
  cases x with
  | ok d => exact ⟨d, rfl⟩
  | err => cases h
  | panic => cases h

/-- The beginning of a NetCDF file: no dimensions, and one attribute without a name that claims to have 4294967295 `f64` values. -/
def longAttribute : List UInt8 :=
  [0x43, 0x44, 0x46, 2, 0, 0, 0, 0, 0, 0, 0, 0, 0, 0, 0, 0, 0, 0, 0, 0x0C, 0, 0, 0, 1,
   0, 0, 0, 0, 0, 0, 0, 6, 0xFF, 0xFF, 0xFF, 0xFF]

/-- C174, NetCDF, violated: a file of 36 bytes makes the reader ask for a buffer of 32 gigabytes. -/
theorem C174_netcdf_counterexample :
    longAttribute.length = 36 ∧ (Memory.readDocument longAttribute [clat, clon]).1 = [3, 3, 0, 0, 34359738360] ∧
    readDocument longAttribute [clat, clon] = .err :=
  ⟨rfl, by decide +kernel, by decide +kernel⟩

end Verif.NetCdf
