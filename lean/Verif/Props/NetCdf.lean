import Verif.Lemmas.NetCdfPrefix
import Verif.Lemmas.FloatErr
import Verif.Lemmas.Geo
import Mathlib.Analysis.Real.Pi.Bounds

/-!
# Properties C28, C29, C30, C66, C67, C68: reading NetCDF files
-/

namespace Verif.Props

open Verif Verif.NetCdf
open Verif.Spec.NetCdf (Data encodeHeader utf8 padding)

/-! ## C28: headers -/

/-- **C28.** A header written by the format specification is read back in full, whatever follows it:
the number of records and every dimension, attribute and variable with all their fields, in order. -/
theorem C28_round_trip (h : Spec.NetCdf.Header) (hk : h.ok) (rest : List UInt8) :
    readHeader (encodeHeader h ++ rest) = .ok (headerOf h, rest) := readHeader_ok hk rest

/-- **C28.** Cut off anywhere, such a header is rejected with an error. -/
theorem C28_truncated (h : Spec.NetCdf.Header) (hk : h.ok) (n : Nat) (hn : n < (encodeHeader h).length) :
    readHeader ((encodeHeader h).take n) = .err := by
  have e := C28_round_trip h hk []
  rw [List.append_nil, ← List.take_append_drop n (encodeHeader h)] at e
  rcases good_readHeader Rd.stable_crash _ _ _ _ e with h | ⟨r, -, hr⟩
  · exact h
  · exfalso
    have := congrArg List.length hr
    rw [List.length_nil, List.length_append, List.length_drop] at this
    omega

/-- **C28.** A file that does not start with "CDF" and the version number 2 is rejected with an error. -/
theorem C28_magic (s : List UInt8) (h : s.take 4 ≠ [0x43, 0x44, 0x46, 2]) : readHeader s = .err := by
  apply Rd.bind_of_err
  unfold readMagic
  cases e : readNChars 3 s with
  | panic => exact absurd e (safe_readNChars 3 s)
  | err => exact Rd.bind_of_err e
  | ok p =>
    obtain ⟨m, r⟩ := p
    rw [Rd.bind_of_ok e]
    unfold readNChars at e
    obtain ⟨b, r1, e1, e2⟩ := Rd.bind_ok_iff.mp e
    obtain ⟨rfl, hl⟩ := Rd.bytes_ok_iff.mp e1
    have hb : b = m ∧ r1 = r := by
      split at e2
      · simpa using e2
      · simp at e2
    obtain ⟨rfl, rfl⟩ := hb
    cases r1 with
    | nil => exact Rd.bind_of_err (by decide)
    | cons c r2 =>
      have hu : Rd.u8 (c :: r2) = .ok (c.toNat, r2) := by
        simp [Rd.u8, Rd.uint_eq, beNat]
      rw [Rd.bind_of_ok hu]
      by_cases hm : b = netcdfMagic
      · have hc : c.toNat ≠ 2 := by
          intro hc
          apply h
          have : c = 2 := UInt8.toNat_inj.mp hc
          rw [this, hm]
          rfl
        simp [Rd.lift, Magic.new, hm, hc]
      · simp [Rd.lift, Magic.new, hm]

/-- Different well-formed headers are never confused. -/
theorem C28_encode_injective (h h' : Spec.NetCdf.Header) (hk : h.ok) (hk' : h'.ok)
    (e : encodeHeader h = encodeHeader h') : headerOf h = headerOf h' := by
  have a := C28_round_trip h hk []
  rw [e, C28_round_trip h' hk' []] at a
  simpa using a.symm

/-! ## C29: data -/

/-- The bytes a variable occupies according to the format: padded to a multiple of four. -/
def vsize (d : Data) : Nat := d.encode.length + (padding d.encode.length).length

theorem encode_length (d : Data) : d.encode.length = d.count * (typeOfNumber d.typeNumber).byteSize := by
  cases d with
  | byte v => simp [Data.encode, Data.count, Data.typeNumber, typeOfNumber, ValueType.byteSize]
  | char v => simp [Data.encode, Data.count, Data.typeNumber, typeOfNumber, ValueType.byteSize]
  | short v => exact flatMap_be_length 2 _ v
  | int v => exact flatMap_be_length 4 _ v
  | float v => exact flatMap_be_length 4 _ v
  | double v => exact flatMap_be_length 8 _ v

theorem findVar_append (name : List UInt8) (pre post : List Var) (v : Var) (hv : v.name = name)
    (hpre : ∀ w ∈ pre, w.name ≠ name) : findVar name (pre ++ v :: post) = some v := by
  induction pre with
  | nil => simp [findVar, hv]
  | cons w ws ih =>
    rw [List.cons_append, findVar, if_neg (hpre w (by simp))]
    exact ih (fun w hw => hpre w (by simp [hw]))

/-- **C29.** The values of the first variable of the requested name are returned exactly as stored:
the file holds, at the offset the header gives, data of the type and size the header gives.  (The
number of bytes is a multiple of four; for other sizes see `C66_counterexample_padding`.) -/
theorem C29_data (file : List UInt8) (h : Spec.NetCdf.Header) (name : List Char)
    (pre post : List Spec.NetCdf.Var) (v : Spec.NetCdf.Var) (d : Data) (rest : List UInt8)
    (hvars : h.vars = pre ++ v :: post) (hname : v.name = name)
    (hfirst : ∀ w ∈ pre, utf8 w.name ≠ utf8 name)
    (hbegin : v.begin < 2 ^ 63) (htype : v.type = d.typeNumber) (hsize : v.size = vsize d)
    (hmult : d.encode.length % 4 = 0) (hd : d.ok)
    (hfile : file.drop v.begin = d.encode ++ rest) :
    readDataByVar file (headerOf h) (utf8 name) = .ok (decoded d) := by
  have hp : padding d.encode.length = [] := by unfold padding; rw [hmult]; rfl
  have hvar : findVar (utf8 name) (headerOf h).varList = some (varOf v) := by
    unfold headerOf
    simp only [hvars, List.map_append, List.map_cons]
    apply findVar_append
    · simp [varOf, hname]
    · intro w hw
      obtain ⟨x, hx, rfl⟩ := List.mem_map.mp hw
      exact hfirst x hx
  have hty : (varOf v).ncType = typeOfNumber d.typeNumber := by simp [varOf, htype]
  have hcount : entryCount (varOf v) = d.count := by
    unfold entryCount
    rw [hty, show (varOf v).size = v.size from rfl, hsize, vsize, hp, encode_length]
    apply Nat.mul_div_cancel
    cases d <;> simp [Data.typeNumber, typeOfNumber, ValueType.byteSize]
  unfold readDataByVar
  rw [hvar]
  simp only
  rw [if_neg (by simp only [varOf]; omega), hcount, hty]
  have hr := readValues_ok hd rest
  rw [hp, List.append_nil] at hr
  rw [show (varOf v).begin = v.begin from rfl, hfile, hr]

/-- **C29.** A variable the file does not have is reported as an error. -/
theorem C29_missing (file : List UInt8) (h : Header) (name : List UInt8)
    (hm : ∀ v ∈ h.varList, v.name ≠ name) : readDataByVar file h name = .err := by
  unfold readDataByVar
  have : findVar name h.varList = none := by
    revert hm
    generalize h.varList = l
    intro hm
    induction l with
    | nil => rfl
    | cons w ws ih =>
      rw [findVar, if_neg (hm w (by simp))]
      exact ih (fun w hw => hm w (by simp [hw]))
  rw [this]

theorem readDataMap_go_ok (file : List UInt8) (h : Header) (f : List UInt8 → Values) :
    ∀ (names : List (List UInt8)) (acc : List (List UInt8 × Values)),
      (∀ n ∈ names, readDataByVar file h n = .ok (f n)) →
      readDataMap.go file h acc names = .ok ((names.map fun n => (n, f n)).reverse ++ acc) := by
  intro names
  induction names with
  | nil => intro acc _; rfl
  | cons n ns ih =>
    intro acc hn
    rw [readDataMap.go, hn n (by simp), Res.bind_ok, ih _ (fun m hm => hn m (by simp [hm]))]
    simp

theorem find_map_pair (f : List UInt8 → Values) (n : List UInt8) :
    ∀ l : List (List UInt8), n ∈ l →
      ((l.map fun m => (m, f m)).find? (·.1 = n)) = some (n, f n) := by
  intro l
  induction l with
  | nil => intro h; cases h
  | cons m ms ih =>
    intro h
    rw [List.map_cons, List.find?_cons]
    by_cases e : m = n
    · subst e; simp
    · simp only [e, decide_false]
      exact ih ((List.mem_cons.mp h).resolve_left (fun h => e h.symm))

/-- **C29.** Reading a whole file delivers the values of every requested variable, under its name. -/
theorem C29_document (h : Spec.NetCdf.Header) (hk : h.ok) (tail : List UInt8)
    (names : List (List UInt8)) (f : List UInt8 → Values)
    (hdata : ∀ n ∈ names, readDataByVar (encodeHeader h ++ tail) (headerOf h) n = .ok (f n)) :
    ∃ doc, readDocument (encodeHeader h ++ tail) names = .ok doc ∧ doc.header = headerOf h ∧
      (∀ n ∈ names, doc.get n = some (f n)) ∧ (∀ n, n ∉ names → doc.get n = none) := by
  refine ⟨⟨headerOf h, (names.map fun n => (n, f n)).reverse⟩, ?_, rfl, ?_, ?_⟩
  · unfold readDocument readDataMap
    rw [C28_round_trip h hk tail]
    simp only
    rw [readDataMap_go_ok _ _ f names [] hdata]
    simp
  · intro n hn
    unfold Document.get
    simp only
    rw [← List.map_reverse, find_map_pair f n _ (by simpa using hn)]
    rfl
  · intro n hn
    unfold Document.get
    have : (names.map fun n => (n, f n)).reverse.find? (·.1 = n) = none := by
      rw [List.find?_eq_none]
      intro x hx
      rw [List.mem_reverse, List.mem_map] at hx
      obtain ⟨m, hm, rfl⟩ := hx
      simp only [decide_eq_true_eq]
      intro e
      exact hn (e ▸ hm)
    simp only at this ⊢
    rw [this]
    rfl

/-- A requested variable that is missing makes the whole reading an error. -/
theorem C29_document_missing (h : Spec.NetCdf.Header) (hk : h.ok) (tail : List UInt8)
    (pre post : List (List UInt8)) (n : List UInt8) (f : List UInt8 → Values)
    (hpre : ∀ m ∈ pre, readDataByVar (encodeHeader h ++ tail) (headerOf h) m = .ok (f m))
    (hn : ∀ v ∈ h.vars, utf8 v.name ≠ n) :
    readDocument (encodeHeader h ++ tail) (pre ++ n :: post) = .err := by
  unfold readDocument readDataMap
  rw [C28_round_trip h hk tail]
  simp only
  have key : ∀ (pre : List (List UInt8)) (acc : List (List UInt8 × Values)),
      (∀ m ∈ pre, readDataByVar (encodeHeader h ++ tail) (headerOf h) m = .ok (f m)) →
      readDataMap.go (encodeHeader h ++ tail) (headerOf h) acc (pre ++ n :: post) = .err := by
    intro pre
    induction pre with
    | nil =>
      intro acc _
      rw [List.nil_append, readDataMap.go, C29_missing]
      · rfl
      · intro v hv
        obtain ⟨w, hw, rfl⟩ := List.mem_map.mp hv
        exact hn w hw
    | cons m ms ih =>
      intro acc hm
      rw [List.cons_append, readDataMap.go, hm m (by simp), Res.bind_ok,
        ih _ (fun x hx => hm x (by simp [hx]))]
  rw [key pre [] hpre]
  rfl

/-! A small file with two variables of two doubles each. -/

/-- The word of the double 0.5. -/
def halfWord : Spec.NetCdf.F64Word := ⟨false, 1022, 0⟩
/-- The word of the double -1.0. -/
def minusOneWord : Spec.NetCdf.F64Word := ⟨true, 1023, 0⟩

def demoHeader : Spec.NetCdf.Header where
  numRecs := 0
  dims := [⟨['c', 'e', 'l', 'l'], 2⟩, ⟨['é'], 3⟩]
  attributes := [⟨['t', 'i', 't', 'l', 'e'], .char [65, 66, 67]⟩]
  vars := [⟨['c', 'l', 'a', 't'], [0], [⟨['u'], .short [-2, 3, 4]⟩], 6, 16, 184⟩,
           ⟨['c', 'l', 'o', 'n'], [0], [], 6, 16, 200⟩]

instance (n : List Char) : Decidable (Spec.NetCdf.Name.ok n) :=
  inferInstanceAs (Decidable ((utf8 n).length < 2 ^ 32))

theorem demoHeader_ok : demoHeader.ok := by
  unfold Spec.NetCdf.Header.ok
  refine ⟨by decide, by decide, ?_, by decide, ?_, by decide, ?_⟩
  · intro d hd
    simp only [demoHeader, List.mem_cons, List.not_mem_nil, or_false] at hd
    rcases hd with rfl | rfl <;> constructor <;> decide
  · intro a ha
    simp only [demoHeader, List.mem_cons, List.not_mem_nil, or_false] at ha
    subst ha
    exact ⟨by decide, trivial, by decide⟩
  · intro v hv
    simp only [demoHeader, List.mem_cons, List.not_mem_nil, or_false] at hv
    rcases hv with rfl | rfl
    · refine ⟨by decide, by decide, by decide, by decide, ?_, by decide, by decide, by decide, by decide⟩
      intro a ha
      simp only [List.mem_cons, List.not_mem_nil, or_false] at ha
      subst ha
      refine ⟨by decide, ?_, by decide⟩
      simp only [Data.ok]
      decide
    · exact ⟨by decide, by decide, by decide, by decide, by simp, by decide, by decide, by decide, by decide⟩

def demoLat : Data := .double [halfWord, minusOneWord]
def demoLon : Data := .double [minusOneWord, halfWord]
def demoTail : List UInt8 := demoLat.encode ++ demoLon.encode

theorem demo_length : (encodeHeader demoHeader).length = 184 := by decide +kernel

example : ∃ hdr, readHeader (encodeHeader demoHeader ++ [1, 2, 3]) = .ok (hdr, [1, 2, 3]) ∧
    hdr.varList.length = 2 ∧ hdr.dimList.map (·.length) = [2, 3] :=
  ⟨_, C28_round_trip demoHeader demoHeader_ok _, rfl, rfl⟩

example : readHeader ((encodeHeader demoHeader).take 183) = .err :=
  C28_truncated _ demoHeader_ok _ (by rw [demo_length]; norm_num)

example : ([0x43, 0x44, 0x46, 1, 0, 0] : List UInt8).take 4 ≠ [0x43, 0x44, 0x46, 2] := by decide

theorem halfWord_ok : halfWord.ok := ⟨by decide, by decide⟩
theorem minusOneWord_ok : minusOneWord.ok := ⟨by decide, by decide⟩
theorem halfWord_value : halfWord.value = .fin (1 / 2) := by decide +kernel
theorem minusOneWord_value : minusOneWord.value = .fin (-1) := by decide +kernel

theorem demo_clat : readDataByVar (encodeHeader demoHeader ++ demoTail) (headerOf demoHeader) clat
    = .ok (.doubles [.fin (1 / 2), .fin (-1)]) := by
  have e := C29_data (encodeHeader demoHeader ++ demoTail) demoHeader ['c', 'l', 'a', 't'] [] _ _ demoLat
    demoLon.encode rfl rfl (by simp) (by norm_num) rfl (by decide +kernel) (by decide +kernel) (by
      intro w hw
      simp only [List.mem_cons, List.not_mem_nil, or_false] at hw
      rcases hw with rfl | rfl
      · exact halfWord_ok
      · exact minusOneWord_ok) (by
      rw [List.drop_append_of_le_length (by rw [demo_length]),
        List.drop_of_length_le (by rw [demo_length]), List.nil_append]
      rfl)
  have e2 : decoded demoLat = .doubles [.fin (1 / 2), .fin (-1)] := by
    simp only [decoded, demoLat, List.map_cons, List.map_nil, halfWord_value, minusOneWord_value]
  rw [e2] at e
  exact e

theorem demo_clon : readDataByVar (encodeHeader demoHeader ++ demoTail) (headerOf demoHeader) clon
    = .ok (.doubles [.fin (-1), .fin (1 / 2)]) := by
  have e := C29_data (encodeHeader demoHeader ++ demoTail) demoHeader ['c', 'l', 'o', 'n'] [_] [] _ demoLon
    [] rfl rfl (by decide) (by norm_num) rfl (by decide +kernel) (by decide +kernel) (by
      intro w hw
      simp only [List.mem_cons, List.not_mem_nil, or_false] at hw
      rcases hw with rfl | rfl
      · exact minusOneWord_ok
      · exact halfWord_ok) (by
      rw [show (encodeHeader demoHeader ++ demoTail).drop 200 = demoLon.encode ++ [] by decide +kernel])
  have e2 : decoded demoLon = .doubles [.fin (-1), .fin (1 / 2)] := by
    simp only [decoded, demoLon, List.map_cons, List.map_nil, halfWord_value, minusOneWord_value]
  rw [e2] at e
  exact e

example : ∃ doc, readDocument (encodeHeader demoHeader ++ demoTail) [clat, clon] = .ok doc ∧
    doc.get clat = some (.doubles [.fin (1 / 2), .fin (-1)]) ∧
    doc.get clon = some (.doubles [.fin (-1), .fin (1 / 2)]) := by
  obtain ⟨doc, h1, -, h2, -⟩ := C29_document demoHeader demoHeader_ok demoTail [clat, clon]
    (fun n => if n = clat then .doubles [.fin (1 / 2), .fin (-1)] else .doubles [.fin (-1), .fin (1 / 2)])
    (by
      intro n hn
      simp only [List.mem_cons, List.not_mem_nil, or_false] at hn
      rcases hn with rfl | rfl
      · rw [if_pos rfl]; exact demo_clat
      · rw [if_neg (by decide)]; exact demo_clon)
  refine ⟨doc, h1, ?_, ?_⟩
  · rw [h2 clat (by simp), if_pos rfl]
  · rw [h2 clon (by simp), if_neg (by decide)]

/-- `temp` is not in the file. -/
example : readDocument (encodeHeader demoHeader ++ demoTail) [clat, [0x74, 0x65, 0x6D, 0x70], clon] = .err :=
  C29_document_missing demoHeader demoHeader_ok demoTail [clat] [clon] _
    (fun _ => .doubles [.fin (1 / 2), .fin (-1)]) (by
      intro n hn
      simp only [List.mem_cons, List.not_mem_nil, or_false] at hn
      subst hn
      exact demo_clat) (by decide)

/-! ## C30: crashes -/

/-- **C30.** False: a file of 37 bytes whose only attribute has type number 7 crashes the reader. -/
theorem C30_counterexample : readHeader (
    [0x43, 0x44, 0x46, 2] ++ [0, 0, 0, 0] ++ [0, 0, 0, 0, 0, 0, 0, 0] ++ [0, 0, 0, 12, 0, 0, 0, 1]
      ++ [0, 0, 0, 1, 0x61, 0, 0, 0] ++ [0, 0, 0, 7, 0]) = .panic := by decide +kernel

/-- **C30.** Unknown type numbers are the only cause: a reader that treats them as an error never
crashes on a header, and the code differs from it only in crashing where that one fails. -/
theorem C30_cause (s : List UInt8) :
    readHeaderWith Rd.fail s ≠ .panic ∧
    (readHeader s = readHeaderWith Rd.fail s ∨ (readHeader s = .panic ∧ readHeaderWith Rd.fail s = .err)) :=
  ⟨safe_readHeader Rd.safe_fail s, agree_readHeader (fun _ => .inr ⟨rfl, rfl⟩) s⟩

/-- **C30**, for data: reading the values of a variable never crashes, whatever header and file say. -/
theorem C30_data_partial (file : List UInt8) (h : Header) (name : List UInt8) :
    readDataByVar file h name ≠ .panic := by
  unfold readDataByVar
  split
  · simp
  · split
    · simp
    · rename_i v _ _
      have := safe_readValues (entryCount v) v.ncType (file.drop v.begin)
      cases e : readValues (entryCount v) v.ncType (file.drop v.begin) with
      | ok p => simp
      | err => simp
      | panic => exact absurd e this

/-- **C30**, for whole files: whatever follows the header, and whichever variables are asked for, a
file whose header the reader accepts does not crash it. -/
theorem C30_document_partial (file : List UInt8) (names : List (List UInt8))
    (h : readHeader file ≠ .panic) : readDocument file names ≠ .panic := by
  unfold readDocument
  cases e : readHeader file with
  | panic => exact absurd e h
  | err => simp
  | ok p =>
    obtain ⟨hdr, r⟩ := p
    simp only
    have key : ∀ (names : List (List UInt8)) (acc : List (List UInt8 × Values)),
        readDataMap.go file hdr acc names ≠ .panic := by
      intro names
      induction names with
      | nil => intro acc; simp [readDataMap.go]
      | cons n ns ih =>
        intro acc
        rw [readDataMap.go]
        cases e : readDataByVar file hdr n with
        | panic => exact absurd e (C30_data_partial file hdr n)
        | err => simp
        | ok v => rw [Res.bind_ok]; exact ih _
    unfold readDataMap
    cases e : readDataMap.go file hdr [] names with
    | panic => exact absurd e (key names [])
    | err => simp
    | ok m => simp

/-- Files with a well-formed header, complete or cut off anywhere, never crash the reader. -/
theorem C30_truncated_partial (h : Spec.NetCdf.Header) (hk : h.ok) (tail : List UInt8)
    (names : List (List UInt8)) (n : Nat) :
    readDocument ((encodeHeader h ++ tail).take n) names ≠ .panic := by
  apply C30_document_partial
  rcases Nat.lt_or_ge n (encodeHeader h).length with hn | hn
  · rw [List.take_append_of_le_length (by omega), C28_truncated h hk n hn]; simp
  · have : (encodeHeader h ++ tail).take n = encodeHeader h ++ tail.take (n - (encodeHeader h).length) := by
      rw [List.take_append, List.take_of_length_le hn]
    rw [this, C28_round_trip h hk]; simp

example : readDocument ((encodeHeader demoHeader ++ demoTail).take 190) [clat] ≠ .panic :=
  C30_truncated_partial _ demoHeader_ok _ _ _

/-! ## C66: number of values -/

/-- A variable of three bytes, `[1, 2, 3]` in the file, padded as the format demands. -/
def byteHeader : Spec.NetCdf.Header where
  numRecs := 0
  dims := [⟨['n'], 3⟩]
  attributes := []
  vars := [⟨['b'], [0], [], 1, 4, 84⟩]

/-- **C66.** False: of a variable with three byte values the reader returns four, the last one being
padding. -/
theorem C66_counterexample_padding :
    (encodeHeader byteHeader).length = 84 ∧ vsize (.byte [1, 2, 3]) = 4 ∧
    readDataByVar (encodeHeader byteHeader ++ [1, 2, 3, 0]) (headerOf byteHeader) [0x62]
      = .ok (.bytes [1, 2, 3, 0]) := by decide +kernel

/-- A record variable (first dimension of length 0) of one integer per record, two records. -/
def recordHeader : Spec.NetCdf.Header where
  numRecs := 2
  dims := [⟨['t'], 0⟩]
  attributes := []
  vars := [⟨['r'], [0], [], 4, 4, 84⟩]

/-- **C66.** False: of a variable with two records the reader returns the first only. -/
theorem C66_counterexample_records :
    (encodeHeader recordHeader).length = 84 ∧
    readDataByVar (encodeHeader recordHeader ++ [0, 0, 0, 7, 0, 0, 0, 9]) (headerOf recordHeader) [0x72]
      = .ok (.ints [7]) := by decide +kernel

/-- The number of records has no influence at all. -/
theorem C66_records_ignored (file : List UInt8) (h : Header) (n : Nat) (name : List UInt8) :
    readDataByVar file { h with numRecs := n } name = readDataByVar file h name := rfl

/-- **C66**, partial: values of four or eight bytes come in the right number. -/
theorem C66_count_partial (v : Var) (n : Nat) (h : v.size = n * v.ncType.byteSize) : entryCount v = n := by
  unfold entryCount
  rw [h]
  apply Nat.mul_div_cancel
  cases v.ncType <;> simp [ValueType.byteSize]

example : entryCount (varOf ⟨['c'], [0], [], 6, 16, 200⟩) = 2 := C66_count_partial _ 2 rfl

/-! ## C67: lists without elements -/

/-- **C67.** False: a list written with its tag and zero elements, which the grammar of the format
allows, is rejected. -/
theorem C67_counterexample : readHeader (
    [0x43, 0x44, 0x46, 2] ++ [0, 0, 0, 0] ++ [0, 0, 0, 10, 0, 0, 0, 0] ++ [0, 0, 0, 0, 0, 0, 0, 0]
      ++ [0, 0, 0, 0, 0, 0, 0, 0]) = .err := by decide +kernel

/-- The same header with the list marked absent is accepted. -/
theorem C67_absent_accepted : ∃ h, readHeader (
    [0x43, 0x44, 0x46, 2] ++ [0, 0, 0, 0] ++ [0, 0, 0, 0, 0, 0, 0, 0] ++ [0, 0, 0, 0, 0, 0, 0, 0]
      ++ [0, 0, 0, 0, 0, 0, 0, 0]) = .ok (h, []) :=
  ⟨_, C28_round_trip ⟨0, [], [], []⟩ (by
    unfold Spec.NetCdf.Header.ok
    refine ⟨by decide, by decide, ?_, by decide, ?_, by decide, ?_⟩ <;> simp) []⟩

/-! ## C68: cell positions -/

theorem rnd64_err {q : Rat} (h : |q| ≤ 2 ^ 127) :
    ∃ v : Rat, rnd f64 q = .fin v ∧ |v - q| ≤ |q| / 2 ^ 53 + 1 / 2 ^ 150 := by
  have rep : Rep f64 (2 ^ 127) := by
    have := rep_pow2 (F := f64) (k := 127) (by decide)
    rwa [show pow2 127 = 2 ^ 127 by rw [pow2_eq]; norm_num] at this
  refine ⟨_, rnd_fin prec64 rep (by decide +kernel) h, ?_⟩
  have u : (pow2 (-(f64.prec : Int)) : Rat) = 1 / 2 ^ 53 := by decide +kernel
  have η : (pow2 (f64.emin - 1) : Rat) ≤ 1 / 2 ^ 150 := by
    refine (pow2_mono (b := -150) (by decide)).trans (le_of_eq ?_)
    decide +kernel
  have := rndq_err f64 q
  rw [u] at this
  refine this.trans (max_le ?_ ?_)
  · rw [mul_one_div]
    exact le_add_of_nonneg_right (by positivity)
  · exact η.trans (le_add_of_nonneg_left (div_nonneg (abs_nonneg q) (by norm_num)))

/-- `180 / PI` in binary64. -/
theorem deg_val : Fl.div f64 (.fin 180) pi64 = .fin (1007958012753983 / 17592186044416) := by decide +kernel

theorem deg_near : |((1007958012753983 / 17592186044416 : Rat) : ℝ) - 180 / Real.pi| ≤ 1 / 2 ^ 40 := by
  have h1 := Real.pi_gt_d20
  have h2 := Real.pi_lt_d20
  have p := Real.pi_pos
  have hlo : 180 / Real.pi ≤ 180 / 3.14159265358979323846 := by
    apply div_le_div_of_nonneg_left <;> linarith
  have hhi : 180 / 3.14159265358979323847 ≤ 180 / Real.pi := by
    apply div_le_div_of_nonneg_left <;> linarith
  push_cast
  rw [abs_le]
  constructor
  · have : (180 : ℝ) / 3.14159265358979323846 ≤ 1007958012753983 / 17592186044416 + 1 / 2 ^ 40 := by norm_num
    linarith
  · have : (1007958012753983 : ℝ) / 17592186044416 - 1 / 2 ^ 40 ≤ 180 / 3.14159265358979323847 := by norm_num
    linarith

/-- **C68.** A coordinate stored in radians, up to 3.2 in magnitude, is turned into degrees with an
error of at most 0.00002 degrees. -/
theorem C68_degrees (x : Rat) (hx : |x| ≤ 16 / 5) :
    ∃ w : Rat, Fl.convert f32 (toDegrees (.fin x)) = .fin w ∧ IsFl f32 (.fin w) ∧
      |(w : ℝ) - x * (180 / Real.pi)| ≤ 2 / 10 ^ 5 := by
  set k : Rat := 1007958012753983 / 17592186044416 with hk
  have k0 : 0 ≤ k := by rw [hk]; norm_num
  have k1 : k ≤ 58 := by rw [hk]; norm_num
  have hxk : |x * k| ≤ 186 := by
    rw [abs_mul, abs_of_nonneg k0]
    refine (mul_le_mul hx k1 k0 (by norm_num)).trans ?_
    norm_num
  obtain ⟨v, hv, ev⟩ := rnd64_err (q := x * k) (hxk.trans (by norm_num))
  have ev2 : |v - x * k| ≤ 1 / 10 ^ 10 := by
    have : |x * k| / 2 ^ 53 ≤ 186 / 2 ^ 53 := by gcongr
    have : (186 : Rat) / 2 ^ 53 + 1 / 2 ^ 150 ≤ 1 / 10 ^ 10 := by norm_num
    linarith
  have hvb : |v| ≤ 187 := by
    have := abs_add_le (v - x * k) (x * k)
    rw [sub_add_cancel] at this
    have : (1 : Rat) / 10 ^ 10 ≤ 1 := by norm_num
    linarith
  obtain ⟨w, hw, -, ew⟩ := rnd32_err_le hvb (by norm_num)
  have ew2 : |w - v| ≤ 12 / 10 ^ 6 := by
    have : (187 : Rat) / 2 ^ 24 + 1 / 2 ^ 150 ≤ 12 / 10 ^ 6 := by norm_num
    linarith
  refine ⟨w, ?_, ?_, ?_⟩
  · unfold toDegrees
    rw [deg_val, Fl.mul_fin, ← hk, hv]
    exact hw
  · rw [← hw]; exact isFl_rnd _ _
  · have a1 : |(w : ℝ) - (v : ℝ)| ≤ 12 / 10 ^ 6 := by
      have := (Rat.cast_le (K := ℝ)).mpr ew2
      push_cast at this
      exact this
    have a2 : |(v : ℝ) - x * (k : ℝ)| ≤ 1 / 10 ^ 10 := by
      have := (Rat.cast_le (K := ℝ)).mpr ev2
      push_cast at this
      exact this
    have a3 : |(x : ℝ) * (k : ℝ) - x * (180 / Real.pi)| ≤ 16 / 5 * (1 / 2 ^ 40) := by
      rw [← mul_sub, abs_mul]
      apply mul_le_mul _ deg_near (abs_nonneg _) (by norm_num)
      have := (Rat.cast_le (K := ℝ)).mpr hx
      push_cast at this
      exact this
    have t1 := abs_add_le ((w : ℝ) - v) (v - x * k)
    have t2 := abs_add_le ((w : ℝ) - x * k) (x * k - x * (180 / Real.pi))
    rw [sub_add_sub_cancel] at t1 t2
    have : (12 : ℝ) / 10 ^ 6 + 1 / 10 ^ 10 + 16 / 5 * (1 / 2 ^ 40) ≤ 2 / 10 ^ 5 := by norm_num
    exact t2.trans ((add_le_add (t1.trans (add_le_add a1 a2)) a3).trans this)

/-- **C68.** The positions of a grid file: one per entry of `clat` and `clon`, in order, each the
entry converted to degrees. -/
theorem C68_positions (doc : Document) (lats lons : List Fl) (h1 : doc.get clat = some (.doubles lats))
    (h2 : doc.get clon = some (.doubles lons)) (hl : lats.length = lons.length) :
    ∃ ps, getLatLonValues doc = .ok ps ∧ ps.length = lats.length ∧
      ∀ (i : Nat) (a b : Fl), lats[i]? = some a → lons[i]? = some b →
        ps[i]? = some (LatLon.new (Fl.convert f32 (toDegrees a)) (Fl.convert f32 (toDegrees b))) := by
  unfold getLatLonValues
  rw [h1, h2]
  refine ⟨_, by simp only [Values.getDoubles, Res.bind_ok]; exact if_neg (by simpa using hl), ?_, ?_⟩
  · simp [hl]
  · intro i a b ha hb
    rw [List.getElem?_map, List.getElem?_zip_eq_some (z := (a, b)).mpr ⟨ha, hb⟩]
    rfl

/-- **C68.** Files whose `clat` and `clon` differ in length, or lack one of them, are rejected. -/
theorem C68_rejected (doc : Document) :
    (doc.get clat = none → getLatLonValues doc = .err) ∧ (doc.get clon = none → getLatLonValues doc = .err) ∧
    (∀ lats lons, doc.get clat = some (.doubles lats) → doc.get clon = some (.doubles lons) →
      lats.length ≠ lons.length → getLatLonValues doc = .err) := by
  refine ⟨?_, ?_, ?_⟩
  · intro h; unfold getLatLonValues; rw [h]
  · intro h; unfold getLatLonValues; rw [h]
    split
    · rename_i h2; cases h2
    · rfl
  · intro lats lons h1 h2 hl
    unfold getLatLonValues
    rw [h1, h2]
    simp only [Values.getDoubles, Res.bind_ok]
    exact if_pos hl

/-- Coordinates stored as single precision numbers crash the conversion. -/
theorem C68_counterexample_float : getLatLonValues ⟨headerOf demoHeader, [(clat, .floats []), (clon, .floats [])]⟩ = .panic := by
  decide

example : |(1 / 2 : Rat)| ≤ 16 / 5 := by norm_num
example : (⟨headerOf demoHeader, [(clat, .doubles [.fin 0]), (clon, .doubles [.fin 1])]⟩ : Document).get clon
    = some (.doubles [.fin 1]) := rfl

end Verif.Props
