import Verif.Lemmas.NetCdf
import Verif.Lemmas.NetCdfPrefix
import Verif.Lemmas.Split
import Verif.Spec.NetCdfFile

/-!
# C123: which NetCDF files are accepted

The converse of the round trip C28: whatever the reader accepts is a header in the sense of the grammar.
-/

namespace Verif.NetCdf

open Verif Rd
open Verif.Spec.Grib2 (be F32Word)
open Verif.Spec.NetCdf (Data F64Word utf8 Fill IsName IsDim IsAttr IsList IsVar IsHeader)

/-! ## UTF-8 -/

/-- The character with a given scalar value. -/
theorem exists_char (v : Nat) (h : v < 0xD800 ∨ (0xDFFF < v ∧ v < 0x110000)) :
    ∃ c : Char, c.val.toNat = v := by
  refine ⟨⟨UInt32.ofNat v, ?_⟩, ?_⟩
  · show (UInt32.ofNat v).toNat.isValidChar
    rw [UInt32.toNat_ofNat', Nat.mod_eq_of_lt (by omega)]
    exact h
  · show (UInt32.ofNat v).toNat = v
    rw [UInt32.toNat_ofNat', Nat.mod_eq_of_lt (by omega)]

theorem byte_eq {n : Nat} {b : UInt8} (h : n = b.toNat) : UInt8.ofNat n = b := by
  rw [h]; exact UInt8.ofNat_toNat

theorem char1 (a : UInt8) (h : a.toNat ≤ 0x7F) : ∃ c, String.utf8EncodeChar c = [a] := by
  obtain ⟨c, hc⟩ := exists_char a.toNat (by omega)
  refine ⟨c, ?_⟩
  unfold String.utf8EncodeChar
  simp only [hc]
  rw [if_pos (by omega), byte_eq rfl]

theorem char2 (a b : UInt8) (h : 0xC2 ≤ a.toNat ∧ a.toNat ≤ 0xDF) (hb : 0x80 ≤ b.toNat ∧ b.toNat ≤ 0xBF) :
    ∃ c, String.utf8EncodeChar c = [a, b] := by
  obtain ⟨c, hc⟩ := exists_char (a.toNat % 32 * 64 + b.toNat % 64) (by omega)
  refine ⟨c, ?_⟩
  unfold String.utf8EncodeChar
  simp only [hc]
  rw [if_neg (by omega), if_pos (by omega), byte_eq (b := a) (by omega), byte_eq (b := b) (by omega)]

theorem char3 (a b d : UInt8) (h : 0xE0 ≤ a.toNat ∧ a.toNat ≤ 0xEF) (hb : 0x80 ≤ b.toNat ∧ b.toNat ≤ 0xBF)
    (hd : 0x80 ≤ d.toNat ∧ d.toNat ≤ 0xBF) (h0 : a.toNat = 0xE0 → 0xA0 ≤ b.toNat)
    (h1 : a.toNat = 0xED → b.toNat ≤ 0x9F) : ∃ c, String.utf8EncodeChar c = [a, b, d] := by
  obtain ⟨c, hc⟩ := exists_char (a.toNat % 16 * 4096 + b.toNat % 64 * 64 + d.toNat % 64) (by omega)
  refine ⟨c, ?_⟩
  unfold String.utf8EncodeChar
  simp only [hc]
  rw [if_neg (by omega), if_neg (by omega), if_pos (by omega), byte_eq (b := a) (by omega),
    byte_eq (b := b) (by omega), byte_eq (b := d) (by omega)]

theorem char4 (a b d e : UInt8) (h : 0xF0 ≤ a.toNat ∧ a.toNat ≤ 0xF4) (hb : 0x80 ≤ b.toNat ∧ b.toNat ≤ 0xBF)
    (hd : 0x80 ≤ d.toNat ∧ d.toNat ≤ 0xBF) (he : 0x80 ≤ e.toNat ∧ e.toNat ≤ 0xBF)
    (h0 : a.toNat = 0xF0 → 0x90 ≤ b.toNat) (h1 : a.toNat = 0xF4 → b.toNat ≤ 0x8F) :
    ∃ c, String.utf8EncodeChar c = [a, b, d, e] := by
  obtain ⟨c, hc⟩ := exists_char
    (a.toNat % 8 * 262144 + b.toNat % 64 * 4096 + d.toNat % 64 * 64 + e.toNat % 64) (by omega)
  refine ⟨c, ?_⟩
  unfold String.utf8EncodeChar
  simp only [hc]
  rw [if_neg (by omega), if_neg (by omega), if_neg (by omega), byte_eq (b := a) (by omega),
    byte_eq (b := b) (by omega), byte_eq (b := d) (by omega), byte_eq (b := e) (by omega)]

theorem run_cons {st : Utf8State} {b : UInt8} {bs : List UInt8} (h : utf8Run st (b :: bs) = true) :
    ∃ st', utf8Step st b = some st' ∧ utf8Run st' bs = true := by
  rw [utf8Run] at h
  split at h
  · exact ⟨_, by assumption, h⟩
  · exact absurd h (by simp)

theorem run_next {st : Utf8State} (hs : st ≠ .start) {bs : List UInt8} (h : utf8Run st bs = true) :
    ∃ b bs' st', bs = b :: bs' ∧ utf8Step st b = some st' ∧ utf8Run st' bs' = true := by
  cases bs with
  | nil => simp [utf8Run, hs] at h
  | cons b bs' =>
    obtain ⟨st', e, hr⟩ := run_cons h
    exact ⟨b, bs', st', rfl, e, hr⟩

/-- What each state is waiting for. -/
theorem run_need1 {bs : List UInt8} (h : utf8Run .need1 bs = true) :
    ∃ b bs', bs = b :: bs' ∧ (0x80 ≤ b.toNat ∧ b.toNat ≤ 0xBF) ∧ utf8Run .start bs' = true := by
  obtain ⟨b, bs', st', rfl, e, hr⟩ := run_next (by decide) h
  simp only [utf8Step] at e
  split at e
  · obtain rfl := Option.some.inj e; exact ⟨b, bs', rfl, by assumption, hr⟩
  · simp at e

theorem run_two {st : Utf8State} (lo hi : Nat) (hst : st ≠ .start)
    (hs : ∀ b, utf8Step st b = if lo ≤ b.toNat ∧ b.toNat ≤ hi then some .need1 else none)
    {bs : List UInt8} (h : utf8Run st bs = true) :
    ∃ b d bs', bs = b :: d :: bs' ∧ (lo ≤ b.toNat ∧ b.toNat ≤ hi) ∧ (0x80 ≤ d.toNat ∧ d.toNat ≤ 0xBF) ∧
      utf8Run .start bs' = true := by
  obtain ⟨b, bs', st', rfl, e, hr⟩ := run_next hst h
  rw [hs] at e
  split at e
  · obtain rfl := Option.some.inj e
    obtain ⟨d, bs'', rfl, hd, hr⟩ := run_need1 hr
    exact ⟨b, d, bs'', rfl, by assumption, hd, hr⟩
  · simp at e

theorem run_three {st : Utf8State} (lo hi : Nat) (hst : st ≠ .start)
    (hs : ∀ b, utf8Step st b = if lo ≤ b.toNat ∧ b.toNat ≤ hi then some .need2 else none)
    {bs : List UInt8} (h : utf8Run st bs = true) :
    ∃ b d e bs', bs = b :: d :: e :: bs' ∧ (lo ≤ b.toNat ∧ b.toNat ≤ hi) ∧
      (0x80 ≤ d.toNat ∧ d.toNat ≤ 0xBF) ∧ (0x80 ≤ e.toNat ∧ e.toNat ≤ 0xBF) ∧ utf8Run .start bs' = true := by
  obtain ⟨b, bs', st', rfl, e, hr⟩ := run_next hst h
  rw [hs] at e
  split at e
  · obtain rfl := Option.some.inj e
    obtain ⟨d, e, bs'', rfl, hd, he, hr⟩ := run_two 0x80 0xBF (by decide) (fun _ => rfl) hr
    exact ⟨b, d, e, bs'', rfl, by assumption, hd, he, hr⟩
  · simp at e

/-- A non-empty accepted string begins with the encoding of a character. -/
theorem run_first {a : UInt8} {bs : List UInt8} (h : utf8Run .start (a :: bs) = true) :
    ∃ c bs', a :: bs = String.utf8EncodeChar c ++ bs' ∧ utf8Run .start bs' = true ∧ bs'.length ≤ bs.length := by
  obtain ⟨st', e, hr⟩ := run_cons h
  have hlen := a.toNat_lt
  have three : ∀ {lo hi : Nat}, (0xE0 ≤ a.toNat ∧ a.toNat ≤ 0xEF) → 0x80 ≤ lo → hi ≤ 0xBF →
      (a.toNat = 0xE0 → 0xA0 ≤ lo) → (a.toNat = 0xED → hi ≤ 0x9F) →
      (∃ b d bs', bs = b :: d :: bs' ∧ (lo ≤ b.toNat ∧ b.toNat ≤ hi) ∧ (0x80 ≤ d.toNat ∧ d.toNat ≤ 0xBF) ∧
        utf8Run .start bs' = true) →
      ∃ c bs', a :: bs = String.utf8EncodeChar c ++ bs' ∧ utf8Run .start bs' = true ∧ bs'.length ≤ bs.length := by
    intro lo hi ha hlo hhi h0 h1 hx
    obtain ⟨b, d, bs', rfl, hb, hd, hr⟩ := hx
    obtain ⟨c, hc⟩ := char3 a b d ha (by omega) hd (by omega) (by omega)
    exact ⟨c, bs', by rw [hc]; rfl, hr, by simp; omega⟩
  have four : ∀ {lo hi : Nat}, (0xF0 ≤ a.toNat ∧ a.toNat ≤ 0xF4) → 0x80 ≤ lo → hi ≤ 0xBF →
      (a.toNat = 0xF0 → 0x90 ≤ lo) → (a.toNat = 0xF4 → hi ≤ 0x8F) →
      (∃ b d e bs', bs = b :: d :: e :: bs' ∧ (lo ≤ b.toNat ∧ b.toNat ≤ hi) ∧
        (0x80 ≤ d.toNat ∧ d.toNat ≤ 0xBF) ∧ (0x80 ≤ e.toNat ∧ e.toNat ≤ 0xBF) ∧ utf8Run .start bs' = true) →
      ∃ c bs', a :: bs = String.utf8EncodeChar c ++ bs' ∧ utf8Run .start bs' = true ∧ bs'.length ≤ bs.length := by
    intro lo hi ha hlo hhi h0 h1 hx
    obtain ⟨b, d, e, bs', rfl, hb, hd, he, hr⟩ := hx
    obtain ⟨c, hc⟩ := char4 a b d e ha (by omega) hd he (by omega) (by omega)
    exact ⟨c, bs', by rw [hc]; rfl, hr, by simp; omega⟩
  simp only [utf8Step] at e
  split at e
  · obtain rfl := Option.some.inj e
    obtain ⟨c, hc⟩ := char1 a (by assumption)
    exact ⟨c, bs, by rw [hc]; rfl, hr, le_refl _⟩
  split at e
  · obtain rfl := Option.some.inj e
    obtain ⟨b, bs', rfl, hb, hr⟩ := run_need1 hr
    obtain ⟨c, hc⟩ := char2 a b (by assumption) hb
    exact ⟨c, bs', by rw [hc]; rfl, hr, by simp⟩
  split at e
  · obtain rfl := Option.some.inj e
    exact three (by omega) (by norm_num) (by norm_num) (by omega) (by omega)
      (run_two 0xA0 0xBF (by decide) (fun _ => rfl) hr)
  split at e
  · obtain rfl := Option.some.inj e
    exact three (by omega) (by norm_num) (by norm_num) (by omega) (by omega)
      (run_two 0x80 0x9F (by decide) (fun _ => rfl) hr)
  split at e
  · obtain rfl := Option.some.inj e
    exact three (by omega) (by norm_num) (by norm_num) (by omega) (by omega)
      (run_two 0x80 0xBF (by decide) (fun _ => rfl) hr)
  split at e
  · obtain rfl := Option.some.inj e
    exact four (by omega) (by norm_num) (by norm_num) (by omega) (by omega)
      (run_three 0x90 0xBF (by decide) (fun _ => rfl) hr)
  split at e
  · obtain rfl := Option.some.inj e
    exact four (by omega) (by norm_num) (by norm_num) (by omega) (by omega)
      (run_three 0x80 0xBF (by decide) (fun _ => rfl) hr)
  split at e
  · obtain rfl := Option.some.inj e
    exact four (by omega) (by norm_num) (by norm_num) (by omega) (by omega)
      (run_three 0x80 0x8F (by decide) (fun _ => rfl) hr)
  · simp at e

theorem utf8_of_run (n : Nat) : ∀ bs : List UInt8, bs.length ≤ n → utf8Run .start bs = true →
    ∃ name, bs = utf8 name := by
  induction n with
  | zero =>
    intro bs hl _
    obtain rfl := List.length_eq_zero_iff.mp (Nat.le_zero.mp hl)
    exact ⟨[], rfl⟩
  | succ n ih =>
    intro bs hl h
    cases bs with
    | nil => exact ⟨[], rfl⟩
    | cons a bs =>
      obtain ⟨c, bs', e, hr, hl'⟩ := run_first h
      obtain ⟨name, rfl⟩ := ih bs' (by simp at hl; omega) hr
      exact ⟨c :: name, by rw [e]; simp [utf8]⟩

/-- The bytes accepted are the encodings of texts. -/
theorem utf8Run_iff (bs : List UInt8) : utf8Run .start bs = true ↔ ∃ name, bs = utf8 name :=
  ⟨utf8_of_run bs.length bs (le_refl _), fun ⟨name, e⟩ => e ▸ utf8Run_name name⟩

/-! ## What was read when reading succeeded -/

theorem be_ne_nil (k n : Nat) (r : List UInt8) : be (k + 1) n ++ r ≠ [] := by simp [be]

theorem padding_split {len size : Nat} {s r : List UInt8} (h : readPadding len size s = .ok ((), r)) (hr : r ≠ []) :
    ∃ pad, Fill (len * size) pad ∧ s = pad ++ r := by
  unfold readPadding at h
  split at h
  · rename_i hm
    simp only [skip, Res.ok.injEq, Prod.mk.injEq, true_and] at h
    have hlt : 4 - len * size % 4 < s.length := by
      by_contra hc
      exact hr (by rw [← h, List.drop_eq_nil_iff]; omega)
    have hl : (s.take (4 - len * size % 4)).length = 4 - len * size % 4 := by
      rw [List.length_take]; omega
    refine ⟨s.take (4 - len * size % 4), ⟨by omega, by omega⟩, ?_⟩
    rw [← h, List.take_append_drop]
  · obtain ⟨-, rfl⟩ := pure_ok h
    exact ⟨[], ⟨by simp, by simp; omega⟩, rfl⟩

theorem name_split {b s r : List UInt8} (h : readName s = .ok (b, r)) (hr : r ≠ []) :
    ∃ name e, b = utf8 name ∧ Spec.NetCdf.Name.ok name ∧ IsName name e ∧ s = e ++ r := by
  unfold readName at h
  obtain ⟨len, s1, h1, h⟩ := bind_ok_iff.mp h
  obtain ⟨buf, s2, h2, h⟩ := bind_ok_iff.mp h
  obtain ⟨⟨⟩, s3, h3, h⟩ := bind_ok_iff.mp h
  obtain ⟨rfl, rfl⟩ := pure_ok h
  obtain ⟨hlen, rfl⟩ := uint_split h1
  unfold readNChars at h2
  obtain ⟨buf', s4, h4, h5⟩ := bind_ok_iff.mp h2
  obtain ⟨rfl, rfl⟩ := bytes_ok_iff.mp h4
  clear h2
  split at h5
  · rename_i hu
    obtain ⟨rfl, rfl⟩ := pure_ok h5
    obtain ⟨name, rfl⟩ := (utf8Run_iff _).mp hu
    obtain ⟨pad, hf, rfl⟩ := padding_split h3 hr
    rw [Nat.mul_one] at hf
    exact ⟨name, _, rfl, hlen, ⟨pad, hf, rfl⟩, by simp⟩
  · simp at h5

/-- The fields of a 64-bit word. -/
def word64 (n : Nat) : F64Word := ⟨decide (n / 2 ^ 63 % 2 = 1), n / 2 ^ 52 % 2048, n % 2 ^ 52⟩

theorem word64_bits {n : Nat} (h : n < 256 ^ 8) : (word64 n).bits = n ∧ (word64 n).ok := by
  unfold word64 F64Word.bits F64Word.ok
  refine ⟨?_, by simp only; omega, by simp only; omega⟩
  simp only [decide_eq_true_eq]
  split <;> omega

theorem flatMap_be1 (v : List Nat) : v.flatMap (be 1) = v.map UInt8.ofNat := by
  induction v with
  | nil => rfl
  | cons a v ih => rw [List.flatMap_cons, ih]; simp [be]

theorem values_split {count : Nat} {ty : ValueType} {vals : Values} {s r : List UInt8}
    (h : readValues count ty s = .ok (vals, r)) :
    ∃ (d : Data) (q : List UInt8), d.ok ∧ d.count = count ∧ typeOfNumber d.typeNumber = ty ∧ decoded d = vals ∧
      s = d.encode ++ q ∧ (r ≠ [] → ∃ pad, Fill d.encode.length pad ∧ q = pad ++ r) := by
  cases ty with
  | ncByte =>
    rw [readValues] at h
    obtain ⟨v, s1, h1, h⟩ := bind_ok_iff.mp h
    obtain ⟨⟨⟩, s2, h2, h⟩ := bind_ok_iff.mp h
    obtain ⟨rfl, rfl⟩ := pure_ok h
    obtain ⟨rfl, rfl⟩ := bytes_ok_iff.mp h1
    refine ⟨.byte v, s1, trivial, rfl, rfl, rfl, rfl, fun hr => ?_⟩
    have := padding_split h2 hr
    rwa [Nat.mul_one] at this
  | ncChar =>
    rw [readValues] at h
    obtain ⟨v, s1, h1, h⟩ := bind_ok_iff.mp h
    obtain ⟨⟨⟩, s2, h2, h⟩ := bind_ok_iff.mp h
    obtain ⟨rfl, rfl⟩ := pure_ok h
    obtain ⟨rfl, hb, rfl⟩ := times_split _ h1
    refine ⟨.char (v.map UInt8.ofNat), s1, trivial, by simp [Data.count], rfl, rfl,
      by rw [Data.encode, flatMap_be1], fun hr => ?_⟩
    have := padding_split h2 hr
    rw [Nat.mul_one] at this
    simpa [Data.encode] using this
  | ncShort =>
    rw [readValues] at h
    obtain ⟨v, s1, h1, h⟩ := bind_ok_iff.mp h
    obtain ⟨⟨⟩, s2, h2, h⟩ := bind_ok_iff.mp h
    obtain ⟨rfl, rfl⟩ := pure_ok h
    obtain ⟨rfl, hb, rfl⟩ := times_split _ h1
    have hs : ∀ n ∈ v, _ := fun n hn => signed_range (b := 16) (by norm_num) (hb n hn)
    have e : (v.map (signedOfBits 16)).flatMap (fun d => be 2 (d % 2 ^ 16).toNat) = v.flatMap (be 2) :=
      flatMap_congr' _ _ _ v (fun n hn => by rw [(hs n hn).2.2])
    refine ⟨.short (v.map (signedOfBits 16)), s1, ?_, by simp [Data.count], rfl, rfl, by rw [Data.encode, e],
      fun hr => ?_⟩
    · intro d hd
      obtain ⟨n, hn, rfl⟩ := List.mem_map.mp hd
      exact ⟨(hs n hn).1, (hs n hn).2.1⟩
    · rw [Data.encode, flatMap_be_length, List.length_map]
      exact padding_split h2 hr
  | ncInt =>
    rw [readValues] at h
    obtain ⟨v, s1, h1, h⟩ := bind_ok_iff.mp h
    obtain ⟨rfl, rfl⟩ := pure_ok h
    obtain ⟨rfl, hb, rfl⟩ := times_split _ h1
    have hs : ∀ n ∈ v, _ := fun n hn => signed_range (b := 32) (by norm_num) (hb n hn)
    have e : (v.map (signedOfBits 32)).flatMap (fun d => be 4 (d % 2 ^ 32).toNat) = v.flatMap (be 4) :=
      flatMap_congr' _ _ _ v (fun n hn => by rw [(hs n hn).2.2])
    refine ⟨.int (v.map (signedOfBits 32)), s1, ?_, by simp [Data.count], rfl, rfl, by rw [Data.encode, e],
      fun _ => ⟨[], ?_, rfl⟩⟩
    · intro d hd
      obtain ⟨n, hn, rfl⟩ := List.mem_map.mp hd
      exact ⟨(hs n hn).1, (hs n hn).2.1⟩
    · rw [Data.encode, flatMap_be_length, List.length_map]; exact ⟨by simp, by simp⟩
  | ncFloat =>
    rw [readValues] at h
    obtain ⟨v, s1, h1, h⟩ := bind_ok_iff.mp h
    obtain ⟨rfl, rfl⟩ := pure_ok h
    obtain ⟨rfl, hb, rfl⟩ := times_split _ h1
    have hs : ∀ n ∈ v, _ := fun n hn => word32_bits (hb n hn)
    have e : (v.map word32).flatMap (fun w => be 4 w.bits) = v.flatMap (be 4) :=
      flatMap_congr' _ _ _ v (fun n hn => by rw [(hs n hn).1])
    refine ⟨.float (v.map word32), s1, ?_, by simp [Data.count], rfl, ?_, by rw [Data.encode, e],
      fun _ => ⟨[], ?_, rfl⟩⟩
    · intro d hd
      obtain ⟨n, hn, rfl⟩ := List.mem_map.mp hd
      exact (hs n hn).2
    · rw [decoded, map_back _ _ f32OfBits v (fun n hn => by
        rw [← f32OfBits_bits _ (hs n hn).2, (hs n hn).1])]
    · rw [Data.encode, flatMap_be_length, List.length_map]; exact ⟨by simp, by simp⟩
  | ncDouble =>
    rw [readValues] at h
    obtain ⟨v, s1, h1, h⟩ := bind_ok_iff.mp h
    obtain ⟨rfl, rfl⟩ := pure_ok h
    obtain ⟨rfl, hb, rfl⟩ := times_split _ h1
    have hs : ∀ n ∈ v, _ := fun n hn => word64_bits (hb n hn)
    have e : (v.map word64).flatMap (fun w => be 8 w.bits) = v.flatMap (be 8) :=
      flatMap_congr' _ _ _ v (fun n hn => by rw [(hs n hn).1])
    refine ⟨.double (v.map word64), s1, ?_, by simp [Data.count], rfl, ?_, by rw [Data.encode, e],
      fun _ => ⟨[], ?_, rfl⟩⟩
    · intro d hd
      obtain ⟨n, hn, rfl⟩ := List.mem_map.mp hd
      exact (hs n hn).2
    · rw [decoded, map_back _ _ f64OfBits v (fun n hn => by
        rw [← f64OfBits_bits _ (hs n hn).2, (hs n hn).1])]
    · rw [Data.encode, flatMap_be_length, List.length_map]; exact ⟨by simp, by simp; omega⟩

set_option maxRecDepth 4000 in
theorem type_split {ty : ValueType} {s r : List UInt8} (h : readValueType crash s = .ok (ty, r)) :
    ∃ n, 1 ≤ n ∧ n ≤ 6 ∧ typeOfNumber n = ty ∧ s = be 4 n ++ r := by
  unfold readValueType at h
  obtain ⟨n, s1, h1, hz⟩ := bind_ok_iff.mp h
  obtain ⟨hn, rfl⟩ := uint_split h1
  clear h
  by_cases h6 : 1 ≤ n ∧ n ≤ 6
  · have : n = 1 ∨ n = 2 ∨ n = 3 ∨ n = 4 ∨ n = 5 ∨ n = 6 := by omega
    rcases this with rfl | rfl | rfl | rfl | rfl | rfl <;>
    · obtain ⟨rfl, rfl⟩ := pure_ok hz
      exact ⟨_, by norm_num, by norm_num, rfl, rfl⟩
  · rw [if_neg (by omega), if_neg (by omega), if_neg (by omega), if_neg (by omega), if_neg (by omega),
      if_neg (by omega)] at hz
    simp at hz

theorem type_injective {m n : Nat} (hm : 1 ≤ m ∧ m ≤ 6) (hn : 1 ≤ n ∧ n ≤ 6)
    (h : typeOfNumber m = typeOfNumber n) : m = n := by
  have a : m = 1 ∨ m = 2 ∨ m = 3 ∨ m = 4 ∨ m = 5 ∨ m = 6 := by omega
  have b : n = 1 ∨ n = 2 ∨ n = 3 ∨ n = 4 ∨ n = 5 ∨ n = 6 := by omega
  rcases a with rfl | rfl | rfl | rfl | rfl | rfl <;> rcases b with rfl | rfl | rfl | rfl | rfl | rfl <;>
    first | rfl | (exact absurd h (by decide))

theorem dim_split {a : Dim} {s r : List UInt8} (h : readDim s = .ok (a, r)) :
    ∃ d e, dimOf d = a ∧ d.ok ∧ IsDim d e ∧ s = e ++ r := by
  unfold readDim at h
  obtain ⟨name, s1, h1, h⟩ := bind_ok_iff.mp h
  obtain ⟨len, s2, h2, h⟩ := bind_ok_iff.mp h
  obtain ⟨rfl, rfl⟩ := pure_ok h
  obtain ⟨hl, rfl⟩ := uint_split h2
  obtain ⟨n, e, rfl, hn, he, rfl⟩ := name_split h1 (be_ne_nil _ _ _)
  exact ⟨⟨n, len⟩, _, rfl, ⟨hn, hl⟩, ⟨e, he, rfl⟩, by simp⟩

theorem attr_split {a : Attr} {s r : List UInt8} (h : readAttr crash s = .ok (a, r)) (hr : r ≠ []) :
    ∃ d e, attrOf d = a ∧ d.ok ∧ IsAttr d e ∧ s = e ++ r := by
  unfold readAttr at h
  obtain ⟨name, s1, h1, h⟩ := bind_ok_iff.mp h
  obtain ⟨ty, s2, h2, h⟩ := bind_ok_iff.mp h
  obtain ⟨len, s3, h3, h⟩ := bind_ok_iff.mp h
  obtain ⟨vals, s4, h4, h⟩ := bind_ok_iff.mp h
  obtain ⟨rfl, rfl⟩ := pure_ok h
  obtain ⟨d, q, hd, rfl, hty, rfl, rfl, hq⟩ := values_split h4
  obtain ⟨pad, hf, rfl⟩ := hq hr
  obtain ⟨hl, rfl⟩ := uint_split h3
  obtain ⟨t, ht1, ht6, rfl, rfl⟩ := type_split h2
  obtain ⟨n, e, rfl, hn, he, rfl⟩ := name_split h1 (be_ne_nil _ _ _)
  obtain rfl := type_injective (typeNumber_range d) ⟨ht1, ht6⟩ hty
  exact ⟨⟨n, d⟩, _, rfl, ⟨hn, hd, hl⟩, ⟨e, pad, he, hf, rfl⟩, by simp⟩

theorem items_split {α β : Type} {item : Rd β} {dec : α → β} {ok : α → Prop} {P : α → List UInt8 → Prop}
    (n : Nat) : ∀ {s r : List UInt8} {bs : List β}, times item n s = .ok (bs, r) → r ≠ [] →
    (∀ s b r, item s = .ok (b, r) → r ≠ [] → ∃ a e, dec a = b ∧ ok a ∧ P a e ∧ s = e ++ r) →
    ∃ l parts, l.map dec = bs ∧ l.length = n ∧ (∀ a ∈ l, ok a) ∧ List.Forall₂ P l parts ∧
      s = parts.flatten ++ r := by
  induction n with
  | zero =>
    intro s r bs h _ _
    obtain ⟨rfl, rfl⟩ := pure_ok h
    exact ⟨[], [], rfl, rfl, by simp, .nil, rfl⟩
  | succ n ih =>
    intro s r bs h hr hi
    rw [times] at h
    obtain ⟨b, s1, h1, h⟩ := bind_ok_iff.mp h
    obtain ⟨bs', s2, h2, h⟩ := bind_ok_iff.mp h
    obtain ⟨rfl, rfl⟩ := pure_ok h
    obtain ⟨l, parts, rfl, hl, hok, hp, rfl⟩ := ih h2 hr hi
    obtain ⟨a, e, rfl, ha, he, rfl⟩ := hi _ _ _ h1 (by simp [hr])
    refine ⟨a :: l, e :: parts, rfl, by simp [hl], ?_, .cons he hp, by simp⟩
    intro x hx
    rcases List.mem_cons.mp hx with rfl | hx
    · exact ha
    · exact hok x hx

/-- The same for elements that do not end in fill bytes: nothing need follow. -/
theorem items_split' {α β : Type} {item : Rd β} {dec : α → β} {ok : α → Prop} {P : α → List UInt8 → Prop}
    (hi : ∀ s b r, item s = .ok (b, r) → ∃ a e, dec a = b ∧ ok a ∧ P a e ∧ s = e ++ r)
    (n : Nat) : ∀ {s r : List UInt8} {bs : List β}, times item n s = .ok (bs, r) →
    ∃ l parts, l.map dec = bs ∧ l.length = n ∧ (∀ a ∈ l, ok a) ∧ List.Forall₂ P l parts ∧
      s = parts.flatten ++ r := by
  induction n with
  | zero =>
    intro s r bs h
    obtain ⟨rfl, rfl⟩ := pure_ok h
    exact ⟨[], [], rfl, rfl, by simp, .nil, rfl⟩
  | succ n ih =>
    intro s r bs h
    rw [times] at h
    obtain ⟨b, s1, h1, h⟩ := bind_ok_iff.mp h
    obtain ⟨bs', s2, h2, h⟩ := bind_ok_iff.mp h
    obtain ⟨rfl, rfl⟩ := pure_ok h
    obtain ⟨l, parts, rfl, hl, hok, hp, rfl⟩ := ih h2
    obtain ⟨a, e, rfl, ha, he, rfl⟩ := hi _ _ _ h1
    refine ⟨a :: l, e :: parts, rfl, by simp [hl], ?_, .cons he hp, by simp⟩
    intro x hx
    rcases List.mem_cons.mp hx with rfl | hx
    · exact ha
    · exact hok x hx

theorem list_split {α β : Type} {item : Rd β} {dec : α → β} {ok : α → Prop} {P : α → List UInt8 → Prop}
    {tag : Nat} {s r : List UInt8} {bs : List β} (h : readList tag item s = .ok (bs, r))
    (hi : ∀ n s, times item n s = .ok (bs, r) → ∃ l parts, l.map dec = bs ∧ l.length = n ∧
      (∀ a ∈ l, ok a) ∧ List.Forall₂ P l parts ∧ s = parts.flatten ++ r) :
    ∃ l e, l.map dec = bs ∧ l.length < 2 ^ 32 ∧ (∀ a ∈ l, ok a) ∧ IsList tag P l e ∧ s = e ++ r := by
  unfold readList at h
  obtain ⟨t, s1, h1, hy⟩ := bind_ok_iff.mp h
  obtain ⟨n, s2, h2, hz⟩ := bind_ok_iff.mp hy
  obtain ⟨ht, rfl⟩ := uint_split h1
  obtain ⟨hn, rfl⟩ := uint_split h2
  clear h hy
  split at hz
  · rename_i h0
    obtain ⟨rfl, rfl⟩ := h0
    obtain ⟨rfl, rfl⟩ := pure_ok hz
    exact ⟨[], _, rfl, by norm_num, by simp, .inl ⟨rfl, rfl⟩, by simp⟩
  · split at hz
    · rename_i h1
      obtain ⟨rfl, hpos⟩ := h1
      obtain ⟨l, parts, rfl, rfl, hok, hp, rfl⟩ := hi n s2 hz
      refine ⟨l, _, rfl, hn, hok, .inr ⟨?_, parts, hp, rfl⟩, by simp⟩
      rintro rfl
      simp at hpos
    · simp at hz

theorem var_split {a : Var} {s r : List UInt8} (h : readVar crash s = .ok (a, r)) :
    ∃ d e, varOf d = a ∧ d.ok ∧ IsVar d e ∧ s = e ++ r := by
  unfold readVar at h
  obtain ⟨name, s1, h1, h⟩ := bind_ok_iff.mp h
  obtain ⟨n, s2, h2, h⟩ := bind_ok_iff.mp h
  obtain ⟨ids, s3, h3, h⟩ := bind_ok_iff.mp h
  obtain ⟨attrs, s4, h4, h⟩ := bind_ok_iff.mp h
  obtain ⟨ty, s5, h5, h⟩ := bind_ok_iff.mp h
  obtain ⟨size, s6, h6, h⟩ := bind_ok_iff.mp h
  obtain ⟨off, s7, h7, h⟩ := bind_ok_iff.mp h
  obtain ⟨rfl, rfl⟩ := pure_ok h
  obtain ⟨hb, rfl⟩ := uint_split h7
  obtain ⟨hs, rfl⟩ := uint_split h6
  obtain ⟨t, ht1, ht6, rfl, rfl⟩ := type_split h5
  obtain ⟨as, ea, rfl, hal, hak, hae, rfl⟩ := list_split (dec := attrOf) (ok := Spec.NetCdf.Attr.ok) (P := IsAttr) h4
    (fun n s h => items_split n h (be_ne_nil _ _ _) (fun _ _ _ h hr => attr_split h hr))
  obtain ⟨rfl, hi, rfl⟩ := times_split _ h3
  obtain ⟨hn, rfl⟩ := uint_split h2
  obtain ⟨nm, e, rfl, hnm, he, rfl⟩ := name_split h1 (be_ne_nil _ _ _)
  exact ⟨⟨nm, ids, as, t, size, off⟩, _, rfl, ⟨hnm, hn, hi, hal, hak, ht1, ht6, hs, hb⟩,
    ⟨e, ea, he, hae, rfl⟩, by simp⟩

/-! ## Everything the grammar allows is read -/

theorem fill_length {n : Nat} {pad : List UInt8} (h : Fill n pad) : pad.length = (4 - n % 4) % 4 := by
  obtain ⟨h1, h2⟩ := h
  omega

theorem name_read {name : List Char} {e : List UInt8} (hk : Spec.NetCdf.Name.ok name) (h : IsName name e)
    (r : List UInt8) : readName (e ++ r) = .ok (utf8 name, r) := by
  obtain ⟨pad, hf, rfl⟩ := h
  unfold readName
  rw [List.append_assoc, List.append_assoc, u32_bind (by exact hk), bind_of_ok (readNChars_name name _),
    bind_of_ok (readPadding_fill _ 1 (by rw [Nat.mul_one]; exact fill_length hf) r)]
  rfl

theorem dim_read {d : Spec.NetCdf.Dim} {e : List UInt8} (hk : d.ok) (h : IsDim d e) (r : List UInt8) :
    readDim (e ++ r) = .ok (dimOf d, r) := by
  obtain ⟨n, hn, rfl⟩ := h
  unfold readDim
  rw [List.append_assoc, bind_of_ok (name_read hk.1 hn _), u32_bind hk.2]
  rfl

theorem attr_read {a : Spec.NetCdf.Attr} {e : List UInt8} (hk : a.ok) (h : IsAttr a e) (r : List UInt8) :
    readAttr crash (e ++ r) = .ok (attrOf a, r) := by
  obtain ⟨n, pad, hn, hf, rfl⟩ := h
  obtain ⟨t1, t2⟩ := typeNumber_range a.data
  unfold readAttr
  simp only [List.append_assoc]
  rw [bind_of_ok (name_read hk.1 hn _), bind_of_ok (readValueType_ok t1 t2 _), u32_bind hk.2.2]
  have := readValues_fill hk.2.1 (fill_length hf) r
  rw [List.append_assoc] at this
  rw [bind_of_ok this]
  rfl

theorem items_read {α β : Type} {item : Rd β} {dec : α → β} {ok : α → Prop} {P : α → List UInt8 → Prop}
    (hi : ∀ a e, ok a → P a e → ∀ r, item (e ++ r) = .ok (dec a, r)) {l : List α} {parts : List (List UInt8)}
    (h : List.Forall₂ P l parts) (hk : ∀ a ∈ l, ok a) (r : List UInt8) :
    times item l.length (parts.flatten ++ r) = .ok (l.map dec, r) := by
  induction h with
  | nil => rfl
  | cons ha _ ih =>
    have ih := ih (fun a ha => hk a (by simp [ha]))
    rw [List.length_cons, times, List.flatten_cons, List.append_assoc, bind_of_ok (hi _ _ (hk _ (by simp)) ha _),
      bind_of_ok ih]
    rfl

theorem list_read {α β : Type} {item : Rd β} {dec : α → β} {ok : α → Prop} {P : α → List UInt8 → Prop}
    {tag : Nat} (ht : 0 < tag) (ht2 : tag < 2 ^ 32)
    (hi : ∀ a e, ok a → P a e → ∀ r, item (e ++ r) = .ok (dec a, r)) {l : List α} {e : List UInt8}
    (h : IsList tag P l e) (hl : l.length < 2 ^ 32) (hk : ∀ a ∈ l, ok a) (r : List UInt8) :
    readList tag item (e ++ r) = .ok (l.map dec, r) := by
  unfold readList
  rcases h with ⟨rfl, rfl⟩ | ⟨hne, parts, hp, rfl⟩
  · rw [List.append_assoc, u32_bind (by norm_num), u32_bind (by norm_num), if_pos ⟨rfl, rfl⟩]
    rfl
  · have hpos : 0 < l.length := List.length_pos_of_ne_nil hne
    rw [List.append_assoc, List.append_assoc, u32_bind (by omega), u32_bind (by omega),
      if_neg (by omega), if_pos ⟨rfl, by omega⟩]
    exact items_read hi hp hk r

theorem var_read {v : Spec.NetCdf.Var} {e : List UInt8} (hk : v.ok) (h : IsVar v e) (r : List UInt8) :
    readVar crash (e ++ r) = .ok (varOf v, r) := by
  obtain ⟨n, as, hn, ha, rfl⟩ := h
  obtain ⟨h1, h2, h3, h4, h5, h6, h7, h8, h9⟩ := hk
  unfold readVar
  simp only [List.append_assoc]
  have ht := times_flatMap (m := u32) (be 4) id v.dimIds (fun d hd r' => uint_be (k := 4) (h3 d hd) r')
  rw [List.map_id] at ht
  have hr : ∀ r, readAttrList crash (as ++ r) = .ok (v.attributes.map attrOf, r) := fun r =>
    list_read (by norm_num) (by norm_num) (fun _ _ hk h r => attr_read hk h r) ha h4 h5 r
  rw [bind_of_ok (name_read h1 hn _), u32_bind h2, bind_of_ok (ht _), bind_of_ok (hr _),
    bind_of_ok (readValueType_ok h6 h7 _), u32_bind h8, u64_bind h9]
  rfl

/-! ## C123 -/

/-- **C123.** A header is read from a file exactly if the file begins with a byte string that the grammar of
the format relates to a header: the two have the same number of records and the same dimensions,
attributes and variables, and reading stops at its end.  Nothing else is accepted: no wrong tag, no name
that is not UTF-8, no list shorter than declared. -/
theorem C123_accepted_iff (s : List UInt8) (h : Header) (rest : List UInt8) :
    readHeader s = .ok (h, rest) ↔
      ∃ (H : Spec.NetCdf.Header) (e : List UInt8), H.ok ∧ headerOf H = h ∧ IsHeader H e ∧ s = e ++ rest := by
  constructor
  · intro hs
    unfold readHeader readHeaderWith at hs
    obtain ⟨magic, s1, h1, hs⟩ := bind_ok_iff.mp hs
    obtain ⟨recs, s2, h2, hs⟩ := bind_ok_iff.mp hs
    obtain ⟨dims, s3, h3, hs⟩ := bind_ok_iff.mp hs
    obtain ⟨attrs, s4, h4, hs⟩ := bind_ok_iff.mp hs
    obtain ⟨vars, s5, h5, hs⟩ := bind_ok_iff.mp hs
    obtain ⟨rfl, rfl⟩ := pure_ok hs
    obtain ⟨vs, ev, rfl, hvl, hvk, hve, rfl⟩ := list_split (dec := varOf) (ok := Spec.NetCdf.Var.ok) (P := IsVar) h5
      (fun n s h => items_split' (fun _ _ _ h => var_split h) n h)
    have hne : ev ++ s5 ≠ [] := by
      rcases hve with ⟨-, rfl⟩ | ⟨-, parts, -, rfl⟩
      · simp [be]
      · rw [List.append_assoc]; exact be_ne_nil _ _ _
    obtain ⟨as, ea, rfl, hal, hak, hae, rfl⟩ := list_split (dec := attrOf) (ok := Spec.NetCdf.Attr.ok) (P := IsAttr) h4
      (fun n s h => items_split n h hne (fun _ _ _ h hr => attr_split h hr))
    obtain ⟨ds, ed, rfl, hdl, hdk, hde, rfl⟩ := list_split (dec := dimOf) (ok := Spec.NetCdf.Dim.ok) (P := IsDim) h3
      (fun n s h => items_split' (fun _ _ _ h => dim_split h) n h)
    obtain ⟨hr, rfl⟩ := uint_split h2
    unfold readMagic at h1
    obtain ⟨m, s6, h6, hy⟩ := bind_ok_iff.mp h1
    obtain ⟨v, s7, h7, hz⟩ := bind_ok_iff.mp hy
    unfold readNChars at h6
    obtain ⟨m', s8, h8, h9⟩ := bind_ok_iff.mp h6
    obtain ⟨rfl, -⟩ := bytes_ok_iff.mp h8
    clear h1 hy h6
    split at h9
    · obtain ⟨rfl, rfl⟩ := pure_ok h9
      obtain ⟨-, rfl⟩ := uint_split h7
      unfold lift Magic.new at hz
      by_cases hm : m' = netcdfMagic
      · by_cases hv : v = 2
        · rw [if_neg (by simp [hm]), if_neg (by simp [hv])] at hz
          simp only [Res.ok.injEq, Prod.mk.injEq] at hz
          obtain ⟨rfl, rfl⟩ := hz
          subst hm hv
          exact ⟨⟨recs, ds, as, vs⟩, _, ⟨hr, hdl, hdk, hal, hak, hvl, hvk⟩, rfl,
            ⟨ed, ea, ev, hde, hae, hve, rfl⟩, by simp [netcdfMagic, be]⟩
        · rw [if_neg (by simp [hm]), if_pos hv] at hz
          simp at hz
      · rw [if_pos hm] at hz
        simp at hz
    · simp at h9
  · rintro ⟨H, e, hk, rfl, ⟨ed, ea, ev, hd, ha, hv, rfl⟩, rfl⟩
    obtain ⟨h1, h2, h3, h4, h5, h6, h7⟩ := hk
    unfold readHeader readHeaderWith
    have hm : ∀ r, readMagic ([0x43, 0x44, 0x46, 2] ++ r) = .ok (⟨[0x43, 0x44, 0x46], 2⟩, r) := by
      intro r
      unfold readMagic
      have : readNChars 3 ([0x43, 0x44, 0x46, 2] ++ r) = .ok ([0x43, 0x44, 0x46], be 1 2 ++ r) := by
        unfold readNChars
        rw [show ([0x43, 0x44, 0x46, 2] : List UInt8) ++ r = [0x43, 0x44, 0x46] ++ (be 1 2 ++ r) from rfl,
          bytes_bind (n := 3) [0x43, 0x44, 0x46] rfl, if_pos (by decide)]
        rfl
      rw [bind_of_ok this, u8_bind (by norm_num)]
      rfl
    simp only [List.append_assoc]
    have rd : ∀ r, readDimList (ed ++ r) = .ok (H.dims.map dimOf, r) := fun r =>
      list_read (by norm_num) (by norm_num) (fun _ _ hk h r => dim_read hk h r) hd h2 h3 r
    have ra : ∀ r, readAttrList crash (ea ++ r) = .ok (H.attributes.map attrOf, r) := fun r =>
      list_read (by norm_num) (by norm_num) (fun _ _ hk h r => attr_read hk h r) ha h4 h5 r
    have rv : ∀ r, readVarList crash (ev ++ r) = .ok (H.vars.map varOf, r) := fun r =>
      list_read (by norm_num) (by norm_num) (fun _ _ hk h r => var_read hk h r) hv h6 h7 r
    rw [bind_of_ok (hm _), u32_bind h1, bind_of_ok (rd _), bind_of_ok (ra _), bind_of_ok (rv _)]
    rfl

/-- **C123.** In particular every name of an accepted header is text. -/
theorem C123_names (s : List UInt8) (h : Header) (rest : List UInt8) (hs : readHeader s = .ok (h, rest)) :
    (∀ d ∈ h.dimList, ∃ t, d.name = utf8 t) ∧ (∀ a ∈ h.attList, ∃ t, a.name = utf8 t) ∧
    (∀ v ∈ h.varList, (∃ t, v.name = utf8 t) ∧ ∀ a ∈ v.attributes, ∃ t, a.name = utf8 t) := by
  obtain ⟨H, e, -, rfl, -, -⟩ := (C123_accepted_iff s h rest).mp hs
  refine ⟨?_, ?_, ?_⟩
  · intro d hd
    obtain ⟨D, -, rfl⟩ := List.mem_map.mp hd
    exact ⟨D.name, rfl⟩
  · intro a ha
    obtain ⟨A, -, rfl⟩ := List.mem_map.mp ha
    exact ⟨A.name, rfl⟩
  · intro v hv
    obtain ⟨V, -, rfl⟩ := List.mem_map.mp hv
    refine ⟨⟨V.name, rfl⟩, fun a ha => ?_⟩
    obtain ⟨A, -, rfl⟩ := List.mem_map.mp ha
    exact ⟨A.name, rfl⟩

theorem findVar_some_iff (name : List UInt8) (vs : List Var) (v : Var) :
    findVar name vs = some v ↔
      ∃ pre post, vs = pre ++ v :: post ∧ v.name = name ∧ ∀ w ∈ pre, w.name ≠ name := by
  induction vs with
  | nil => simp [findVar]
  | cons w ws ih =>
    rw [findVar]
    split
    · rename_i hw
      constructor
      · intro h
        obtain rfl := Option.some.inj h
        exact ⟨[], ws, rfl, hw, by simp⟩
      · rintro ⟨pre, post, e, hv, hp⟩
        cases pre with
        | nil => simp at e; rw [e.1]
        | cons p pre =>
          simp at e
          exact absurd (e.1 ▸ hw) (hp p (by simp))
    · rename_i hw
      rw [ih]
      constructor
      · rintro ⟨pre, post, rfl, hv, hp⟩
        refine ⟨w :: pre, post, rfl, hv, ?_⟩
        intro x hx
        rcases List.mem_cons.mp hx with rfl | hx
        · exact hw
        · exact hp x hx
      · rintro ⟨pre, post, e, hv, hp⟩
        cases pre with
        | nil => simp at e; exact absurd (e.1 ▸ hv) hw
        | cons p pre =>
          simp at e
          exact ⟨pre, post, e.2, hv, fun x hx => hp x (by simp [hx])⟩

/-- **C123.** The values of a variable are returned exactly if the header lists it, its offset can be sought,
and the file holds at that offset the encoding of as many values of its type as its size announces: the
values returned are those. -/
theorem C123_data_iff (file : List UInt8) (h : Header) (name : List UInt8) (vals : Values) :
    readDataByVar file h name = .ok vals ↔
      ∃ (pre post : List Var) (v : Var) (d : Data), h.varList = pre ++ v :: post ∧ v.name = name ∧
        (∀ w ∈ pre, w.name ≠ name) ∧ v.begin < 2 ^ 63 ∧ d.ok ∧ typeOfNumber d.typeNumber = v.ncType ∧
        d.count = v.size / v.ncType.byteSize ∧ d.encode <+: file.drop v.begin ∧ decoded d = vals := by
  unfold readDataByVar
  constructor
  · intro hs
    split at hs
    · simp at hs
    · rename_i v hv
      obtain ⟨pre, post, e, hn, hp⟩ := (findVar_some_iff _ _ _).mp hv
      split at hs
      · simp at hs
      · rename_i hb
        split at hs
        · rename_i vs r hr
          simp only [Res.ok.injEq] at hs
          subst hs
          obtain ⟨d, q, hd, hc, ht, hdec, hq, -⟩ := values_split hr
          exact ⟨pre, post, v, d, e, hn, hp, by omega, hd, ht, hc, ⟨q, hq.symm⟩, hdec⟩
        · simp at hs
        · simp at hs
  · rintro ⟨pre, post, v, d, e, hn, hp, hb, hd, ht, hc, ⟨q, hq⟩, rfl⟩
    rw [(findVar_some_iff name h.varList v).mpr ⟨pre, post, e, hn, hp⟩]
    simp only
    rw [if_neg (by omega), ← hq, entryCount, ← hc, ← ht]
    rw [readValues_any hd]

/-! ## Examples -/

/-- One dimension called "é" of length 7, whose two-byte name is filled up with arbitrary bytes. -/
def filledHeader : Spec.NetCdf.Header := ⟨5, [⟨['é'], 7⟩], [], []⟩
def filledBytes : List UInt8 :=
  [0x43, 0x44, 0x46, 2, 0, 0, 0, 5, 0, 0, 0, 0x0A, 0, 0, 0, 1, 0, 0, 0, 2, 0xC3, 0xA9, 0xAB, 0xCD, 0, 0, 0, 7,
    0, 0, 0, 0, 0, 0, 0, 0, 0, 0, 0, 0, 0, 0, 0, 0]

theorem filled_ok : filledHeader.ok := by
  refine ⟨by decide, by decide, ?_, by decide, by simp [filledHeader], by decide, by simp [filledHeader]⟩
  intro d hd
  obtain rfl := List.mem_singleton.mp hd
  exact ⟨by show (utf8 ['é']).length < 2 ^ 32; decide +kernel, by decide⟩

theorem filled_is : IsHeader filledHeader filledBytes := by
  refine ⟨_, _, _, .inr ⟨by simp [filledHeader], [_], .cons ⟨_, ⟨[0xAB, 0xCD], ⟨by decide, ?_⟩, rfl⟩, rfl⟩ .nil, rfl⟩,
    .inl ⟨rfl, rfl⟩, .inl ⟨rfl, rfl⟩, ?_⟩
  · decide +kernel
  · decide +kernel

/-- The theorem applies to it, whatever follows. -/
example (rest : List UInt8) : readHeader (filledBytes ++ rest) = .ok (headerOf filledHeader, rest) :=
  (C123_accepted_iff _ _ _).mpr ⟨_, _, filled_ok, rfl, filled_is, rfl⟩

/-- A name holding the three bytes of a surrogate is not accepted. -/
example : readHeader [0x43, 0x44, 0x46, 2, 0, 0, 0, 5, 0, 0, 0, 0x0A, 0, 0, 0, 1, 0, 0, 0, 3, 0xED, 0xA0, 0x80, 0,
    0, 0, 0, 7, 0, 0, 0, 0, 0, 0, 0, 0, 0, 0, 0, 0, 0, 0, 0, 0] = .err := by decide +kernel

/-- The data of a variable of two shorts, at the very end of a file. -/
example : readDataByVar [9, 9, 0, 1, 0xFF, 0xFE] ⟨⟨[], 2⟩, 0, [], [], [⟨[0x76], [], [], .ncShort, 4, 2⟩]⟩ [0x76] =
    .ok (.shorts [1, -2]) :=
  (C123_data_iff _ _ _ _).mpr ⟨[], [], _, .short [1, -2], rfl, rfl, by simp, by norm_num,
    by simp [Data.ok], rfl, rfl, ⟨[], by decide +kernel⟩, rfl⟩

end Verif.NetCdf
