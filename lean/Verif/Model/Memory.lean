import Verif.Model.Grib2
import Verif.Model.NetCdf

/-!
# The readers with the buffers they create

The readers of `Model/Grib2.lean` and `Model/NetCdf.lean` once more, noting the size in bytes of every buffer that is created
with a size taken from the file or given in the code: `vec![0; n]` before a `read_exact`, and the copy that `to_string` makes of
a text.  A buffer is created before it is known whether the stream has as many bytes, so buffers are noted also
when reading them fails.  Not noted: the fixed arrays on the stack of the `byteorder` reads, and vectors that grow
value by value after the value has been read (`documents`, `attributes`, `char_values`).
-/

namespace Verif

/-- A reading function that notes the sizes of the buffers it creates, in order. -/
def Mem (α : Type) : Type := List UInt8 → List Nat × Res (α × List UInt8)

namespace Mem

/-- A reading function that creates no buffer. -/
def plain {α : Type} (m : Rd α) : Mem α := fun s => ([], m s)

/-- Sequencing with `?`. -/
def bind {α β : Type} (m : Mem α) (f : α → Mem β) : Mem β := fun s =>
  match (m s).2 with
  | .ok (a, s') => ((m s).1 ++ (f a s').1, (f a s').2)
  | .err => ((m s).1, .err)
  | .panic => ((m s).1, .panic)

instance : Monad Mem where
  pure a := plain (pure a)
  bind := bind

instance : MonadLift Rd Mem where
  monadLift := plain

/-- A buffer of `n` bytes. -/
def buffer (n : Nat) : Mem Unit := fun s => ([n], .ok ((), s))

/-- `ByteReader::read_n_bytes` (`src/grib2/common/byte_reader.rs` 9-14). -/
def bytes (n : Nat) : Mem (List UInt8) := do
  buffer n
  plain (Rd.bytes n)

/-- The same with the result dropped (`src/grib2/section0/section0_reader.rs` 17). -/
def bytesIgnoringError (n : Nat) : Mem Unit := do
  buffer n
  plain (Rd.bytesIgnoringError n)

/-- A vector of `n` numbers of `size` bytes, and reading them (`read_u16_into` and its like). -/
def numbers {α : Type} (size : Nat) (item : Rd α) (n : Nat) : Mem (List α) := do
  buffer (n * size)
  plain (Rd.times item n)

/-- Read `n` items one after the other. -/
def times {α : Type} (m : Mem α) : Nat → Mem (List α)
  | 0 => pure []
  | n + 1 => do
    let a ← m
    let as ← times m n
    pure (a :: as)

end Mem

namespace Grib2.Memory

open Rd

/-- The four characters of `StringReader::read_n_chars` (`src/grib2/common/string_reader.rs` 10-17): a buffer and the copy made by
`to_string`.  The copy is noted also if the bytes are not UTF-8, where the code makes none. -/
def magic : Mem (List UInt8) := do
  let b ← Mem.bytes 4
  Mem.buffer 4
  pure b

/-- See `readSection0`. -/
def readSection0 : Mem Section0 := do
  let m ← magic
  Mem.bytesIgnoringError 2
  let discipline ← u8
  let edition ← u8
  let length ← u64
  if m ≠ gribMagic then Mem.plain fail
  else pure { discipline := disciplineOfCode discipline, edition, length }

/-- See `readSection1`. -/
def readSection1 : Mem Section1 := do
  let length ← u32
  let sectionNumber ← u8
  let center ← u16
  let subcenter ← u16
  let masterTableVersion ← u8
  let localTableVersion ← u8
  let significance ← u8
  let refTime ← readRefTime
  let status ← u8
  let dataType ← u8
  if sectionNumber ≠ 1 then Mem.plain fail
  else if length < 21 then Mem.plain crash
  else
    let _ ← Mem.bytes (length - 21)
    pure { length, center, subcenter, masterTableVersion, localTableVersion,
           refTimeSignificance := refTimeSignificanceOfCode significance, refTime,
           productionStatus := productionStatusOfCode status,
           processedDataType := processedDataTypeOfCode dataType }

/-- See `readSection2`. -/
def readSection2 : Mem Section2 := do
  let length ← u32
  let sectionNumber ← u8
  if sectionNumber ≠ 2 then Mem.plain fail
  else if length < 5 then Mem.plain crash
  else
    let _ ← Mem.bytes (length - 5)
    pure { length }

/-- See `readProductTemplate4_0`. -/
def readProductTemplate4_0 : Mem ProductTemplate4_0 := do
  let category ← u8
  let number ← u8
  let _ ← Mem.bytes 23
  pure { category := categoryOfCode category, number }

/-- See `readProductTemplate4_8`. -/
def readProductTemplate4_8 : Mem ProductTemplate4_0 := do
  let category ← u8
  let number ← u8
  let _ ← Mem.bytes 30
  let numOfTimeRangeSpecs ← u8
  let _ ← Mem.bytes (4 + 12 * numOfTimeRangeSpecs)
  pure { category := categoryOfCode category, number }

/-- See `readProductTemplate`. -/
def readProductTemplate (tplNumber tplLength : Nat) : Mem ProductTemplate :=
  if tplNumber = 0 then do
    let t ← readProductTemplate4_0
    pure (.t4_0 t)
  else if tplNumber = 1 then do
    let t ← readProductTemplate4_1
    pure (.t4_1 t)
  else if tplNumber = 8 then do
    let t ← readProductTemplate4_8
    pure (.t4_8 t)
  else do
    let _ ← Mem.bytes tplLength
    pure (.unknown tplNumber)

/-- See `readSection4`: the coordinate values are `f32`. -/
def readSection4 : Mem Section4 := do
  let length ← u32
  let sectionNumber ← u8
  let coordinateValuesCount ← u16
  let tplNumber ← u16
  if length < 9 then Mem.plain crash
  else
    let template ← readProductTemplate tplNumber (length - 9)
    let words ← Mem.numbers 4 u32 coordinateValuesCount
    if sectionNumber ≠ 4 then Mem.plain fail
    else pure { length, coordinateValues := words.map f32OfBits, template }

/-- See `readDataTemplate`. -/
def readDataTemplate (tplNumber tplLength : Nat) : Mem DataTemplate :=
  if tplNumber = 0 then do
    let t ← readDataTemplate5_0
    pure (.simplePacking t)
  else do
    let _ ← Mem.bytes tplLength
    pure (.unknown tplNumber)

/-- See `readSection5`. -/
def readSection5 : Mem Section5 := do
  let length ← u32
  let sectionNumber ← u8
  let dataPoints ← u32
  let tplNumber ← u16
  if length < 11 then Mem.plain crash
  else
    let template ← readDataTemplate tplNumber (length - 11)
    if sectionNumber ≠ 5 then Mem.plain fail
    else pure { length, dataPoints, template }

/-- See `readSection6`. -/
def readSection6 : Mem Section6 := do
  let length ← u32
  let sectionNumber ← u8
  let bitmapIndicator ← u8
  if length < 6 then Mem.plain crash
  else
    let bitmap ← Mem.bytes (length - 6)
    if sectionNumber ≠ 6 then Mem.plain fail
    else pure { length, bitmapIndicator, bitmap }

/-- See `readSection7`: the data points are `u16`. -/
def readSection7 : Mem Section7 := do
  let length ← u32
  let sectionNumber ← u8
  if length < 5 then Mem.plain crash
  else
    let dataPoints ← Mem.numbers 2 u16 ((length - 5) / 2)
    if sectionNumber ≠ 7 then Mem.plain fail
    else pure { length, dataPoints }

/-- See `readSection8`. -/
def readSection8 : Mem Unit := do
  let m ← magic
  if m ≠ endMagic then Mem.plain fail else pure ()

/-- See `readSingleDoc`; section 3 creates no buffers (`src/grib2/section3/section3_reader.rs` 17-36). -/
def readSingleDoc : Mem Document := do
  let section0 ← readSection0
  let section1 ← readSection1
  let section2 ← readSection2
  let section3 ← readSection3
  let section4 ← readSection4
  let section5 ← readSection5
  let section6 ← readSection6
  let section7 ← readSection7
  readSection8
  pure { section0, section1, section2, section3, section4, section5, section6, section7 }

/-- See `multiLoop`. -/
def multiLoop : Nat → List UInt8 → List Nat × Res (List Document)
  | 0, _ => ([], .ok [])
  | fuel + 1, s =>
    match (readSingleDoc s).2 with
    | .ok (d, s') =>
      ((readSingleDoc s).1 ++ (multiLoop fuel s').1,
        match (multiLoop fuel s').2 with
        | .ok ds => .ok (d :: ds)
        | .err => .err
        | .panic => .panic)
    | .err => ((readSingleDoc s).1, .ok [])
    | .panic => ((readSingleDoc s).1, .panic)

/-- See `readMultiDoc`. -/
def readMultiDoc (s : List UInt8) : List Nat × Res (List Document) :=
  ((multiLoop (s.length + 1) s).1,
    match (multiLoop (s.length + 1) s).2 with
    | .ok [] => .err
    | .ok ds => .ok ds
    | .err => .err
    | .panic => .panic)

end Grib2.Memory

namespace NetCdf.Memory

open Rd

/-- See `readNChars`: a buffer and the copy made by `to_string` (`src/netcdf/common/string_reader.rs` 10-17). -/
def readNChars (size : Nat) : Mem (List UInt8) := do
  let buf ← Mem.bytes size
  if utf8Run .start buf then do
    Mem.buffer size
    pure buf
  else Mem.plain fail

/-- See `readValues` (`src/netcdf/common/netcdf_values_reader.rs` 26-92): characters are pushed one by one, for the other types there
is a buffer for all values. -/
def readValues (count : Nat) : ValueType → Mem Values
  | .ncByte => do
    let v ← Mem.bytes count
    Mem.plain (readPadding count 1)
    pure (.bytes v)
  | .ncChar => do
    let v ← Mem.plain (Rd.times u8 count)
    Mem.plain (readPadding count 1)
    pure (.chars (v.map UInt8.ofNat))
  | .ncShort => do
    let v ← Mem.numbers 2 u16 count
    Mem.plain (readPadding count 2)
    pure (.shorts (v.map (signedOfBits 16)))
  | .ncInt => do
    let v ← Mem.numbers 4 u32 count
    pure (.ints (v.map (signedOfBits 32)))
  | .ncFloat => do
    let v ← Mem.numbers 4 u32 count
    pure (.floats (v.map f32OfBits))
  | .ncDouble => do
    let v ← Mem.numbers 8 u64 count
    pure (.doubles (v.map f64OfBits))

/-- See `readMagic`. -/
def readMagic : Mem Magic := do
  let magic ← readNChars 3
  let version ← u8
  Mem.plain (lift (Magic.new magic version))

/-- See `readName`. -/
def readName : Mem (List UInt8) := do
  let len ← u32
  let name ← readNChars len
  Mem.plain (readPadding len 1)
  pure name

/-- See `readDim`. -/
def readDim : Mem Dim := do
  let name ← readName
  let len ← u32
  pure ⟨name, len⟩

/-- See `readAttr`. -/
def readAttr : Mem Attr := do
  let name ← readName
  let ty ← readValueType crash
  let len ← u32
  let values ← readValues len ty
  pure ⟨name, ty, values⟩

/-- See `readList`. -/
def readList {α : Type} (tag : Nat) (item : Mem α) : Mem (List α) := do
  let t ← u32
  let n ← u32
  if t = 0 ∧ n = 0 then pure []
  else if t = tag ∧ n > 0 then Mem.times item n
  else Mem.plain fail

/-- See `readVar`: the dimension numbers are pushed one by one (`src/netcdf/header/netcdf_var_reader.rs` 18-22). -/
def readVar : Mem Var := do
  let name ← readName
  let n ← u32
  let dimIds ← Mem.plain (Rd.times u32 n)
  let attributes ← readList 0x0C readAttr
  let ty ← readValueType crash
  let size ← u32
  let begin ← u64
  pure ⟨name, dimIds, attributes, ty, size, begin⟩

/-- See `readHeader`. -/
def readHeader : Mem Header := do
  let magic ← readMagic
  let numRecs ← u32
  let dimList ← readList 0x0A readDim
  let attList ← readList 0x0C readAttr
  let varList ← readList 0x0B readVar
  pure ⟨magic, numRecs, dimList, attList, varList⟩

/-- See `readDataByVar`. -/
def readDataByVar (file : List UInt8) (header : Header) (name : List UInt8) : List Nat × Res Values :=
  match findVar name header.varList with
  | none => ([], .err)
  | some v =>
    if v.begin ≥ 2 ^ 63 then ([], .err)
    else
      ((readValues (entryCount v) v.ncType (file.drop v.begin)).1,
        match (readValues (entryCount v) v.ncType (file.drop v.begin)).2 with
        | .ok (values, _) => .ok values
        | .err => .err
        | .panic => .panic)

/-- See `readDataMap`. -/
def readDataMap (file : List UInt8) (header : Header) (acc : List (List UInt8 × Values)) :
    List (List UInt8) → List Nat × Res (List (List UInt8 × Values))
  | [] => ([], .ok acc)
  | n :: ns =>
    match (readDataByVar file header n).2 with
    | .ok data =>
      ((readDataByVar file header n).1 ++ (readDataMap file header ((n, data) :: acc) ns).1,
        (readDataMap file header ((n, data) :: acc) ns).2)
    | .err => ((readDataByVar file header n).1, .err)
    | .panic => ((readDataByVar file header n).1, .panic)

/-- See `readDocument`. -/
def readDocument (file : List UInt8) (names : List (List UInt8)) : List Nat × Res Document :=
  match (readHeader file).2 with
  | .ok (header, _) =>
    ((readHeader file).1 ++ (readDataMap file header [] names).1,
      match (readDataMap file header [] names).2 with
      | .ok m => .ok ⟨header, m⟩
      | .err => .err
      | .panic => .panic)
  | .err => ((readHeader file).1, .err)
  | .panic => ((readHeader file).1, .panic)

end NetCdf.Memory

end Verif
