import Verif.Model.Memory
import Verif.Lemmas.Grib2
import Verif.Lemmas.NetCdf

/-!
# Lemmas on the readers that note their buffers
-/

namespace Verif

namespace Mem

/-- The reading function without the notes. -/
def erase {α : Type} (m : Mem α) : Rd α := fun s => (m s).2

@[simp] theorem erase_plain {α : Type} (m : Rd α) : erase (plain m) = m := rfl
@[simp] theorem erase_lift {α : Type} (m : Rd α) : erase (monadLift m : Mem α) = m := rfl
@[simp] theorem erase_pure {α : Type} (a : α) : erase (pure a : Mem α) = pure a := rfl
@[simp] theorem erase_buffer (n : Nat) : erase (buffer n) = pure () := rfl

@[simp] theorem erase_bind {α β : Type} (m : Mem α) (f : α → Mem β) : erase (m >>= f) = erase m >>= fun a => erase (f a) := by
  funext s
  show (Mem.bind m f s).2 = Rd.bind (erase m) (fun a => erase (f a)) s
  unfold Mem.bind Rd.bind erase
  split <;> rename_i h <;> simp [h]

@[simp] theorem erase_ite {α : Type} {p : Prop} [Decidable p] (m n : Mem α) : erase (if p then m else n) = if p then erase m else erase n := by
  split <;> rfl

theorem pure_then {β : Type} (f : Unit → Rd β) : ((pure () : Rd Unit) >>= f) = f () := rfl

@[simp] theorem erase_bytes (n : Nat) : erase (bytes n) = Rd.bytes n := by
  unfold bytes; rw [erase_bind, erase_buffer, erase_plain]; rfl
@[simp] theorem erase_bytesIgnoringError (n : Nat) : erase (bytesIgnoringError n) = Rd.bytesIgnoringError n := by
  unfold bytesIgnoringError; rw [erase_bind, erase_buffer, erase_plain]; rfl
@[simp] theorem erase_numbers {α : Type} (size : Nat) (item : Rd α) (n : Nat) : erase (numbers size item n) = Rd.times item n := by
  unfold numbers; rw [erase_bind, erase_buffer, erase_plain]; rfl

theorem erase_times {α : Type} (m : Mem α) (n : Nat) : erase (times m n) = Rd.times (erase m) n := by
  induction n with
  | zero => rfl
  | succ n ih => unfold times Rd.times; simp only [erase_bind, erase_pure, ih]

/-- What has been read pays for the buffers: at most two bytes of buffers for each byte read, and a single buffer of at most `K`
bytes when reading stops without success. -/
structure Frugal (K : Nat) {α : Type} (m : Mem α) : Prop where
  ok : ∀ s a r, (m s).2 = .ok (a, r) → (m s).1.sum + 2 * r.length ≤ 2 * s.length
  any : ∀ s, (m s).1.sum ≤ 2 * s.length + K

variable {K : Nat}

theorem frugal_plain {α : Type} {m : Rd α} (h : ∀ s a r, m s = .ok (a, r) → r.length ≤ s.length) : Frugal K (plain m) := by
  refine ⟨fun s a r e => ?_, fun s => ?_⟩
  · have := h s a r e
    simp only [plain, List.sum_nil]
    omega
  · simp [plain]

theorem frugal_pure {α : Type} (a : α) : Frugal K (pure a : Mem α) :=
  frugal_plain (m := pure a) fun s b r e => by
    simp only [Rd.pure_apply, Res.ok.injEq, Prod.mk.injEq] at e
    rw [e.2]

theorem frugal_stable {α : Type} {m : Rd α} (h : Rd.Stable m) : Frugal K (plain m) :=
  frugal_plain fun s a r e => by
    obtain ⟨p, rfl, -⟩ := h s a r e
    simp

theorem frugal_bind {α β : Type} {m : Mem α} {f : α → Mem β} (hm : Frugal K m)
    (hf : ∀ s a r, (m s).2 = .ok (a, r) → Frugal K (f a)) : Frugal K (m >>= f) := by
  have e : ∀ s, (m >>= f) s = Mem.bind m f s := fun s => rfl
  refine ⟨fun s b r h => ?_, fun s => ?_⟩
  · rw [e] at h ⊢
    unfold Mem.bind at h ⊢
    split at h <;> rename_i h1
    · have a1 := hm.ok s _ _ h1
      have a2 := (hf s _ _ h1).ok _ _ _ h
      simp only [List.sum_append]
      omega
    · cases h
    · cases h
  · rw [e]
    unfold Mem.bind
    split <;> rename_i h1
    · have a1 := hm.ok s _ _ h1
      have a2 := (hf s _ _ h1).any
      rename_i a s'
      have a2 := a2 s'
      simp only [List.sum_append]
      omega
    · exact hm.any s
    · exact hm.any s

theorem frugal_bind' {α β : Type} {m : Mem α} {f : α → Mem β} (hm : Frugal K m) (hf : ∀ a, Frugal K (f a)) : Frugal K (m >>= f) :=
  frugal_bind hm fun _ a _ _ => hf a

/-- A number of `n` bytes is read, then something that may depend on how large it can be. -/
theorem frugal_uint {β : Type} {n : Nat} {f : Nat → Mem β} (hf : ∀ v, v < 256 ^ n → Frugal K (f v)) :
    Frugal K (plain (Rd.uint n) >>= f) := by
  refine frugal_bind (frugal_stable (Rd.stable_uint n)) fun s a r h => hf a ?_
  obtain ⟨b, -, hb, rfl⟩ := Rd.uint_ok_iff.mp h
  have := beNat_lt b
  rwa [hb] at this

theorem frugal_ite {α : Type} {p : Prop} [Decidable p] {m n : Mem α} (hm : p → Frugal K m) (hn : ¬ p → Frugal K n) :
    Frugal K (if p then m else n) := by
  split <;> rename_i h
  · exact hm h
  · exact hn h

theorem frugal_fail {α : Type} : Frugal K (plain (Rd.fail : Rd α)) := frugal_stable Rd.stable_fail
theorem frugal_crash {α : Type} : Frugal K (plain (Rd.crash : Rd α)) := frugal_stable Rd.stable_crash

theorem bytes_apply (n : Nat) (s : List UInt8) : bytes n s = ([n], Rd.bytes n s) := rfl
theorem bytesIgnoringError_apply (n : Nat) (s : List UInt8) : bytesIgnoringError n s = ([n], Rd.bytesIgnoringError n s) := rfl
theorem numbers_apply {α : Type} (size : Nat) (item : Rd α) (n : Nat) (s : List UInt8) :
    numbers size item n s = ([n * size], Rd.times item n s) := rfl

theorem frugal_bytes {n : Nat} (h : n ≤ K) : Frugal K (bytes n) := by
  refine ⟨fun s a r e => ?_, fun s => ?_⟩
  · rw [bytes_apply] at e ⊢
    obtain ⟨rfl, hl⟩ := Rd.bytes_ok_iff.mp e
    simp only [List.sum_cons, List.sum_nil, List.length_append]
    omega
  · rw [bytes_apply]
    simp only [List.sum_cons, List.sum_nil]
    omega

theorem times_uint_length {n k : Nat} {s r : List UInt8} {v : List Nat} (h : Rd.times (Rd.uint k) n s = .ok (v, r)) :
    v.length = n ∧ r.length + n * k = s.length := by
  induction n generalizing s v with
  | zero =>
    simp only [Rd.times, Rd.pure_apply, Res.ok.injEq, Prod.mk.injEq] at h
    obtain ⟨rfl, rfl⟩ := h
    simp
  | succ n ih =>
    unfold Rd.times at h
    obtain ⟨a, s1, h1, h⟩ := Rd.bind_ok_iff.mp h
    obtain ⟨as, s2, h2, h⟩ := Rd.bind_ok_iff.mp h
    simp only [Rd.pure_apply, Res.ok.injEq, Prod.mk.injEq] at h
    obtain ⟨rfl, rfl⟩ := h
    obtain ⟨b, rfl, hb, -⟩ := Rd.uint_ok_iff.mp h1
    obtain ⟨e1, e2⟩ := ih h2
    refine ⟨by simp [e1], ?_⟩
    rw [List.length_append, Nat.succ_mul]
    omega

theorem frugal_numbers {n k : Nat} (h : n * k ≤ K) : Frugal K (numbers k (Rd.uint k) n) := by
  refine ⟨fun s a r e => ?_, fun s => ?_⟩
  · rw [numbers_apply] at e ⊢
    have := (times_uint_length e).2
    simp only [List.sum_cons, List.sum_nil]
    omega
  · rw [numbers_apply]
    simp only [List.sum_cons, List.sum_nil]
    omega

theorem frugal_times {α : Type} {m : Mem α} (h : Frugal K m) (n : Nat) : Frugal K (times m n) := by
  induction n with
  | zero => exact frugal_pure _
  | succ n ih => exact frugal_bind' h fun _ => frugal_bind' ih fun _ => frugal_pure _

end Mem

namespace Grib2.Memory

open Mem Rd

theorem erase_magic : erase magic = Rd.bytes 4 := by
  funext s
  unfold magic
  simp only [erase_bind, erase_bytes, erase_buffer, erase_pure]
  show Rd.bind _ _ s = _
  unfold Rd.bind
  cases h : Rd.bytes 4 s <;> rfl

theorem erase_section0 : erase readSection0 = Grib2.readSection0 := by
  unfold readSection0 Grib2.readSection0
  simp only [erase_bind, erase_magic, erase_bytesIgnoringError, erase_ite, erase_plain, erase_pure, liftM, erase_lift]

theorem erase_section1 : erase readSection1 = Grib2.readSection1 := by
  unfold readSection1 Grib2.readSection1
  simp only [erase_bind, erase_bytes, erase_ite, erase_plain, erase_pure, liftM, erase_lift]

theorem erase_section2 : erase readSection2 = Grib2.readSection2 := by
  unfold readSection2 Grib2.readSection2
  simp only [erase_bind, erase_bytes, erase_ite, erase_plain, erase_pure, liftM, erase_lift]

theorem erase_product (n l : Nat) : erase (readProductTemplate n l) = Grib2.readProductTemplate n l := by
  unfold readProductTemplate Grib2.readProductTemplate readProductTemplate4_0 Grib2.readProductTemplate4_0
    readProductTemplate4_8 Grib2.readProductTemplate4_8
  simp only [erase_bind, erase_bytes, erase_ite, erase_pure, liftM, erase_lift]

theorem erase_section4 : erase readSection4 = Grib2.readSection4 := by
  unfold readSection4 Grib2.readSection4
  simp only [erase_bind, erase_product, erase_numbers, erase_ite, erase_plain, erase_pure, liftM, erase_lift]

theorem erase_section5 : erase readSection5 = Grib2.readSection5 := by
  unfold readSection5 Grib2.readSection5 readDataTemplate Grib2.readDataTemplate
  simp only [erase_bind, erase_bytes, erase_ite, erase_plain, erase_pure, liftM, erase_lift]

theorem erase_section6 : erase readSection6 = Grib2.readSection6 := by
  unfold readSection6 Grib2.readSection6
  simp only [erase_bind, erase_bytes, erase_ite, erase_plain, erase_pure, liftM, erase_lift]

theorem erase_section7 : erase readSection7 = Grib2.readSection7 := by
  unfold readSection7 Grib2.readSection7
  simp only [erase_bind, erase_numbers, erase_ite, erase_plain, erase_pure, liftM, erase_lift]

theorem erase_section8 : erase readSection8 = Grib2.readSection8 := by
  unfold readSection8 Grib2.readSection8
  simp only [erase_bind, erase_magic, erase_ite, erase_plain, erase_pure]

theorem erase_single : erase readSingleDoc = Grib2.readSingleDoc := by
  unfold readSingleDoc Grib2.readSingleDoc
  simp only [erase_bind, erase_pure, liftM, erase_lift, erase_section0, erase_section1, erase_section2, erase_section4, erase_section5,
    erase_section6, erase_section7, erase_section8]

theorem erase_loop (n : Nat) (s : List UInt8) : (multiLoop n s).2 = Grib2.multiLoop n s := by
  induction n generalizing s with
  | zero => rfl
  | succ n ih =>
    have e : (readSingleDoc s).2 = Grib2.readSingleDoc s := congrFun erase_single s
    unfold multiLoop Grib2.multiLoop
    rw [← e]
    cases h : (readSingleDoc s).2 with
    | ok p =>
      simp only [ih]
      cases Grib2.multiLoop n p.2 <;> rfl
    | err => rfl
    | panic => rfl

/-- The reader that notes its buffers reads what the reader reads. -/
theorem erase_multi (s : List UInt8) : (readMultiDoc s).2 = Grib2.readMultiDoc s := by
  unfold readMultiDoc Grib2.readMultiDoc
  simp only [erase_loop]
  split <;> rename_i h <;> simp only [h]

/-! ### Buffers -/

/-- Four gigabytes. -/
abbrev G : Nat := 2 ^ 32

theorem frugal_magic : Frugal G magic := by
  have e : ∀ s, magic s = match Rd.bytes 4 s with
      | .ok (a, r) => ([4, 4], .ok (a, r))
      | .err => ([4], .err)
      | .panic => ([4], .panic) := by
    intro s
    show Mem.bind _ _ s = _
    unfold Mem.bind
    rw [bytes_apply]
    cases Rd.bytes 4 s with
    | ok p => rfl
    | err => rfl
    | panic => rfl
  refine ⟨fun s a r h => ?_, fun s => ?_⟩
  · rw [e] at h ⊢
    split at h <;> rename_i h1
    · cases h
      obtain ⟨rfl, hl⟩ := Rd.bytes_ok_iff.mp h1
      simp only [List.sum_cons, List.sum_nil, List.length_append]
      omega
    · cases h
    · cases h
  · rw [e]
    split <;> simp only [List.sum_cons, List.sum_nil, G] <;> omega

theorem frugal_ignoring {β : Type} {f : Nat → Mem β} (hf : ∀ v, Frugal G (f v)) :
    Frugal G (Mem.bytesIgnoringError 2 >>= fun _ => (plain u8 >>= f)) := by
  have e : (Mem.bytesIgnoringError 2 >>= fun _ => (plain u8 >>= f)) = (Mem.bytes 2 >>= fun _ => (plain u8 >>= f)) := by
    funext s
    show Mem.bind _ _ s = Mem.bind _ _ s
    unfold Mem.bind
    rw [bytes_apply, bytesIgnoringError_apply]
    by_cases h : 2 ≤ s.length
    · simp only [Rd.bytesIgnoringError, Rd.bytes, h, if_true]
    · simp only [Rd.bytesIgnoringError, Rd.bytes, h, if_false]
      show ([2] ++ (Mem.bind (plain u8) f []).1, (Mem.bind (plain u8) f []).2) = _
      rfl
  rw [e]
  exact frugal_bind' (frugal_bytes (by decide)) fun _ => frugal_bind' (frugal_stable stable_u8) hf

theorem frugal_section0 : Frugal G readSection0 := by
  unfold readSection0
  refine frugal_bind' frugal_magic fun _ => frugal_ignoring fun _ => ?_
  exact frugal_bind' (frugal_stable stable_u8) fun _ => frugal_bind' (frugal_stable stable_u64) fun _ =>
    frugal_ite (fun _ => frugal_fail) fun _ => frugal_pure _

theorem frugal_section1 : Frugal G readSection1 := by
  unfold readSection1
  refine frugal_uint fun length hl => ?_
  refine frugal_bind' (frugal_stable stable_u8) fun _ => frugal_bind' (frugal_stable stable_u16) fun _ => ?_
  refine frugal_bind' (frugal_stable stable_u16) fun _ => frugal_bind' (frugal_stable stable_u8) fun _ => ?_
  refine frugal_bind' (frugal_stable stable_u8) fun _ => frugal_bind' (frugal_stable stable_u8) fun _ => ?_
  refine frugal_bind' (frugal_stable stable_refTime) fun _ => frugal_bind' (frugal_stable stable_u8) fun _ => ?_
  refine frugal_bind' (frugal_stable stable_u8) fun _ => ?_
  refine frugal_ite (fun _ => frugal_fail) fun _ => frugal_ite (fun _ => frugal_crash) fun _ => ?_
  exact frugal_bind' (frugal_bytes (by unfold G; omega)) fun _ => frugal_pure _

theorem frugal_section2 : Frugal G readSection2 := by
  unfold readSection2
  refine frugal_uint fun length hl => ?_
  refine frugal_bind' (frugal_stable stable_u8) fun _ => ?_
  refine frugal_ite (fun _ => frugal_fail) fun _ => frugal_ite (fun _ => frugal_crash) fun _ => ?_
  exact frugal_bind' (frugal_bytes (by unfold G; omega)) fun _ => frugal_pure _

theorem frugal_product (n l : Nat) (hl : l ≤ G) : Frugal G (readProductTemplate n l) := by
  unfold readProductTemplate
  refine frugal_ite (fun _ => ?_) fun _ => frugal_ite (fun _ => ?_) fun _ => frugal_ite (fun _ => ?_) fun _ => ?_
  · refine frugal_bind' ?_ fun _ => frugal_pure _
    unfold readProductTemplate4_0
    refine frugal_bind' (frugal_stable stable_u8) fun _ => frugal_bind' (frugal_stable stable_u8) fun _ => ?_
    exact frugal_bind' (frugal_bytes (by decide)) fun _ => frugal_pure _
  · exact frugal_bind' (frugal_stable stable_product4_1) fun _ => frugal_pure _
  · refine frugal_bind' ?_ fun _ => frugal_pure _
    unfold readProductTemplate4_8
    refine frugal_bind' (frugal_stable stable_u8) fun _ => frugal_bind' (frugal_stable stable_u8) fun _ => ?_
    refine frugal_bind' (frugal_bytes (by decide)) fun _ => frugal_uint fun v hv => ?_
    exact frugal_bind' (frugal_bytes (by unfold G; omega)) fun _ => frugal_pure _
  · exact frugal_bind' (frugal_bytes hl) fun _ => frugal_pure _

theorem frugal_section4 : Frugal G readSection4 := by
  unfold readSection4
  refine frugal_uint fun length hl => ?_
  refine frugal_bind' (frugal_stable stable_u8) fun _ => frugal_uint fun count hc => ?_
  refine frugal_bind' (frugal_stable stable_u16) fun _ => ?_
  refine frugal_ite (fun _ => frugal_crash) fun _ => ?_
  refine frugal_bind' (frugal_product _ _ (by unfold G; omega)) fun _ => ?_
  refine frugal_bind' (frugal_numbers (by unfold G; omega)) fun _ => ?_
  exact frugal_ite (fun _ => frugal_fail) fun _ => frugal_pure _

theorem frugal_section5 : Frugal G readSection5 := by
  unfold readSection5 readDataTemplate
  refine frugal_uint fun length hl => ?_
  refine frugal_bind' (frugal_stable stable_u8) fun _ => frugal_bind' (frugal_stable stable_u32) fun _ => ?_
  refine frugal_bind' (frugal_stable stable_u16) fun _ => ?_
  refine frugal_ite (fun _ => frugal_crash) fun _ => ?_
  refine frugal_bind' ?_ fun _ => frugal_ite (fun _ => frugal_fail) fun _ => frugal_pure _
  refine frugal_ite (fun _ => frugal_bind' (frugal_stable stable_data5_0) fun _ => frugal_pure _) fun _ => ?_
  exact frugal_bind' (frugal_bytes (by unfold G; omega)) fun _ => frugal_pure _

theorem frugal_section6 : Frugal G readSection6 := by
  unfold readSection6
  refine frugal_uint fun length hl => ?_
  refine frugal_bind' (frugal_stable stable_u8) fun _ => frugal_bind' (frugal_stable stable_u8) fun _ => ?_
  refine frugal_ite (fun _ => frugal_crash) fun _ => ?_
  refine frugal_bind' (frugal_bytes (by unfold G; omega)) fun _ => ?_
  exact frugal_ite (fun _ => frugal_fail) fun _ => frugal_pure _

theorem frugal_section7 : Frugal G readSection7 := by
  unfold readSection7
  refine frugal_uint fun length hl => ?_
  refine frugal_bind' (frugal_stable stable_u8) fun _ => ?_
  refine frugal_ite (fun _ => frugal_crash) fun _ => ?_
  refine frugal_bind' (frugal_numbers (by unfold G; omega)) fun _ => ?_
  exact frugal_ite (fun _ => frugal_fail) fun _ => frugal_pure _

theorem frugal_section8 : Frugal G readSection8 :=
  frugal_bind' frugal_magic fun _ => frugal_ite (fun _ => frugal_fail) fun _ => frugal_pure _

theorem frugal_single : Frugal G readSingleDoc :=
  frugal_bind' frugal_section0 fun _ => frugal_bind' frugal_section1 fun _ => frugal_bind' frugal_section2 fun _ =>
  frugal_bind' (frugal_stable stable_section3) fun _ => frugal_bind' frugal_section4 fun _ => frugal_bind' frugal_section5 fun _ =>
  frugal_bind' frugal_section6 fun _ => frugal_bind' frugal_section7 fun _ => frugal_bind' frugal_section8 fun _ => frugal_pure _

theorem frugal_loop (n : Nat) (s : List UInt8) : (multiLoop n s).1.sum ≤ 2 * s.length + G := by
  induction n generalizing s with
  | zero => unfold multiLoop; simp
  | succ n ih =>
    unfold multiLoop
    split <;> rename_i h
    · rename_i d s'
      have a1 := frugal_single.ok s _ _ h
      have a2 := ih s'
      simp only [List.sum_append]
      omega
    · exact frugal_single.any s
    · exact frugal_single.any s

end Grib2.Memory

namespace NetCdf.Memory

open Mem Rd

theorem erase_nChars (n : Nat) : erase (readNChars n) = NetCdf.readNChars n := by
  unfold readNChars NetCdf.readNChars
  simp only [erase_bind, erase_bytes, erase_buffer, erase_ite, erase_plain, erase_pure]
  rfl

theorem erase_values (n : Nat) (t : ValueType) : erase (readValues n t) = NetCdf.readValues n t := by
  cases t <;> unfold readValues NetCdf.readValues <;>
    simp only [erase_bind, erase_bytes, erase_numbers, erase_plain, erase_pure]

theorem erase_readMagic : erase readMagic = NetCdf.readMagic := by
  unfold readMagic NetCdf.readMagic
  simp only [erase_bind, erase_nChars, erase_plain, liftM, erase_lift]

theorem erase_name : erase readName = NetCdf.readName := by
  unfold readName NetCdf.readName
  simp only [erase_bind, erase_nChars, erase_plain, erase_pure, liftM, erase_lift]

theorem erase_dim : erase readDim = NetCdf.readDim := by
  unfold readDim NetCdf.readDim
  simp only [erase_bind, erase_name, erase_pure, liftM, erase_lift]

theorem erase_attr : erase readAttr = NetCdf.readAttr crash := by
  unfold readAttr NetCdf.readAttr
  simp only [erase_bind, erase_name, erase_values, erase_pure, liftM, erase_lift]

theorem erase_list {α : Type} (tag : Nat) (m : Mem α) : erase (readList tag m) = NetCdf.readList tag (erase m) := by
  unfold readList NetCdf.readList
  simp only [erase_bind, erase_ite, erase_times, erase_plain, erase_pure, liftM, erase_lift]

theorem erase_var : erase readVar = NetCdf.readVar crash := by
  unfold readVar NetCdf.readVar NetCdf.readAttrList
  simp only [erase_bind, erase_name, erase_list, erase_attr, erase_plain, erase_pure, liftM, erase_lift]

theorem erase_header : erase readHeader = NetCdf.readHeader := by
  unfold readHeader NetCdf.readHeader NetCdf.readHeaderWith NetCdf.readDimList NetCdf.readAttrList NetCdf.readVarList
  simp only [erase_bind, erase_readMagic, erase_list, erase_dim, erase_attr, erase_var, erase_pure, liftM, erase_lift]

theorem erase_data (file : List UInt8) (h : Header) (name : List UInt8) :
    (readDataByVar file h name).2 = NetCdf.readDataByVar file h name := by
  unfold readDataByVar NetCdf.readDataByVar
  cases findVar name h.varList with
  | none => rfl
  | some v =>
    simp only
    split
    · rfl
    · have e : (readValues (entryCount v) v.ncType (file.drop v.begin)).2 =
          NetCdf.readValues (entryCount v) v.ncType (file.drop v.begin) := congrFun (erase_values _ _) _
      rw [← e]
      cases (readValues (entryCount v) v.ncType (file.drop v.begin)).2 <;> rfl

theorem erase_map (file : List UInt8) (h : Header) (acc : List (List UInt8 × Values)) (names : List (List UInt8)) :
    (readDataMap file h acc names).2 = NetCdf.readDataMap.go file h acc names := by
  induction names generalizing acc with
  | nil => rfl
  | cons n ns ih =>
    unfold readDataMap NetCdf.readDataMap.go
    rw [← erase_data]
    cases (readDataByVar file h n).2 with
    | ok d => exact ih _
    | err => rfl
    | panic => rfl

/-- The reader that notes its buffers reads what the reader reads. -/
theorem erase_document (file : List UInt8) (names : List (List UInt8)) :
    (readDocument file names).2 = NetCdf.readDocument file names := by
  have e : (readHeader file).2 = NetCdf.readHeader file := congrFun erase_header file
  unfold readDocument NetCdf.readDocument
  rw [← e]
  cases (readHeader file).2 with
  | ok p =>
    have := erase_map file p.1 [] names
    show (match (readDataMap file p.1 [] names).2 with
      | .ok m => Res.ok (⟨p.1, m⟩ : Document)
      | .err => .err
      | .panic => .panic) = _
    rw [this]
    show _ = (do let m ← NetCdf.readDataMap.go file p.1 [] names; Res.ok (⟨p.1, m⟩ : Document))
    cases NetCdf.readDataMap.go file p.1 [] names <;> rfl
  | err => rfl
  | panic => rfl

/-- Thirty-two gigabytes. -/
abbrev G : Nat := 2 ^ 35

theorem frugal_nChars {n : Nat} (h : n ≤ G) : Frugal G (readNChars n) := by
  have e : ∀ s, readNChars n s = match Rd.bytes n s with
      | .ok (a, r) => if utf8Run .start a then ([n, n], .ok (a, r)) else ([n], .err)
      | .err => ([n], .err)
      | .panic => ([n], .panic) := by
    intro s
    show Mem.bind _ _ s = _
    unfold Mem.bind
    rw [bytes_apply]
    cases Rd.bytes n s with
    | ok p => simp only; split <;> rfl
    | err => rfl
    | panic => rfl
  refine ⟨fun s a r h => ?_, fun s => ?_⟩
  · rw [e] at h ⊢
    split at h <;> rename_i h1
    · obtain ⟨rfl, hl⟩ := Rd.bytes_ok_iff.mp h1
      split at h <;> rename_i h2
      · cases h
        simp only [h2, if_true, List.sum_cons, List.sum_nil, List.length_append]
        omega
      · cases h
    · cases h
    · cases h
  · rw [e]
    split <;> rename_i h1
    · obtain ⟨rfl, hl⟩ := Rd.bytes_ok_iff.mp h1
      split <;> simp only [List.sum_cons, List.sum_nil, List.length_append] <;> omega
    · simp only [List.sum_cons, List.sum_nil]; omega
    · simp only [List.sum_cons, List.sum_nil]; omega

theorem frugal_padding (len size : Nat) : Frugal G (plain (readPadding len size)) := by
  refine frugal_plain fun s a r h => ?_
  unfold readPadding at h
  split at h
  · unfold skip at h
    cases h
    simp
  · cases h
    exact Nat.le_refl _

theorem frugal_values {n : Nat} (h : n < 2 ^ 32) (t : ValueType) : Frugal G (readValues n t) := by
  cases t <;> unfold readValues
  · exact frugal_bind' (frugal_bytes (by unfold G; omega)) fun _ => frugal_bind' (frugal_padding _ _) fun _ => frugal_pure _
  · exact frugal_bind' (frugal_stable (stable_times stable_u8 _)) fun _ => frugal_bind' (frugal_padding _ _) fun _ => frugal_pure _
  · exact frugal_bind' (frugal_numbers (by unfold G; omega)) fun _ => frugal_bind' (frugal_padding _ _) fun _ => frugal_pure _
  · exact frugal_bind' (frugal_numbers (by unfold G; omega)) fun _ => frugal_pure _
  · exact frugal_bind' (frugal_numbers (by unfold G; omega)) fun _ => frugal_pure _
  · exact frugal_bind' (frugal_numbers (by unfold G; omega)) fun _ => frugal_pure _

theorem frugal_name : Frugal G readName := by
  unfold readName
  refine frugal_uint fun v hv => ?_
  exact frugal_bind' (frugal_nChars (by unfold G; omega)) fun _ => frugal_bind' (frugal_padding _ _) fun _ => frugal_pure _

theorem frugal_type : Frugal G (plain (readValueType crash)) := by
  refine frugal_stable ?_
  unfold readValueType
  refine stable_bind stable_u32 fun n => ?_
  repeat' first | exact stable_pure _ | exact stable_crash | refine stable_ite ?_ ?_

theorem frugal_attr : Frugal G readAttr := by
  unfold readAttr
  refine frugal_bind' frugal_name fun _ => frugal_bind' frugal_type fun _ => frugal_uint fun v hv => ?_
  exact frugal_bind' (frugal_values (by omega) _) fun _ => frugal_pure _

theorem frugal_list {α : Type} (tag : Nat) {m : Mem α} (h : Frugal G m) : Frugal G (readList tag m) := by
  unfold readList
  refine frugal_bind' (frugal_stable stable_u32) fun _ => frugal_bind' (frugal_stable stable_u32) fun _ => ?_
  exact frugal_ite (fun _ => frugal_pure _) fun _ => frugal_ite (fun _ => frugal_times h _) fun _ => frugal_fail

theorem frugal_var : Frugal G readVar := by
  unfold readVar
  refine frugal_bind' frugal_name fun _ => frugal_bind' (frugal_stable stable_u32) fun _ => ?_
  refine frugal_bind' (frugal_stable (stable_times stable_u32 _)) fun _ => frugal_bind' (frugal_list _ frugal_attr) fun _ => ?_
  refine frugal_bind' frugal_type fun _ => frugal_bind' (frugal_stable stable_u32) fun _ => ?_
  exact frugal_bind' (frugal_stable stable_u64) fun _ => frugal_pure _

theorem frugal_header : Frugal G readHeader := by
  unfold readHeader
  refine frugal_bind' ?_ fun _ => frugal_bind' (frugal_stable stable_u32) fun _ => ?_
  · unfold readMagic
    refine frugal_bind' (frugal_nChars (by decide)) fun _ => frugal_bind' (frugal_stable stable_u8) fun _ => ?_
    refine frugal_plain fun s a r h => ?_
    unfold lift at h
    split at h
    · cases h; exact Nat.le_refl _
    · cases h
    · cases h
  · refine frugal_bind' (frugal_list _ ?_) fun _ => frugal_bind' (frugal_list _ frugal_attr) fun _ =>
      frugal_bind' (frugal_list _ frugal_var) fun _ => frugal_pure _
    unfold readDim
    exact frugal_bind' frugal_name fun _ => frugal_bind' (frugal_stable stable_u32) fun _ => frugal_pure _

end NetCdf.Memory

end Verif
