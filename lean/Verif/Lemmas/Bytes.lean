import Verif.Model.Bytes
import Verif.Spec.Grib2
import Verif.Lemmas.FloatOps

/-!
# Lemmas about byte-stream readers
-/

namespace Verif

open Spec.Grib2 (be F32Word)

/-! ## Big-endian numbers -/

theorem beNat_foldl (bs : List UInt8) (acc : Nat) :
    bs.foldl (fun acc b => acc * 256 + b.toNat) acc = acc * 256 ^ bs.length + beNat bs := by
  induction bs generalizing acc with
  | nil => simp [beNat]
  | cons b bs ih =>
    simp only [List.foldl_cons, List.length_cons, beNat]
    rw [ih, ih (0 * 256 + b.toNat)]
    ring

@[simp] theorem beNat_nil : beNat [] = 0 := rfl

theorem beNat_cons (b : UInt8) (bs : List UInt8) :
    beNat (b :: bs) = b.toNat * 256 ^ bs.length + beNat bs := by
  have := beNat_foldl bs b.toNat
  simpa [beNat] using this

theorem beNat_lt (bs : List UInt8) : beNat bs < 256 ^ bs.length := by
  induction bs with
  | nil => simp
  | cons b bs ih =>
    rw [beNat_cons, List.length_cons, pow_succ]
    have hb : b.toNat < 256 := b.toNat_lt
    have : b.toNat * 256 ^ bs.length ≤ 255 * 256 ^ bs.length := Nat.mul_le_mul_right _ (by omega)
    omega

@[simp] theorem be_length (k n : Nat) : (be k n).length = k := by
  induction k with
  | zero => rfl
  | succ k ih => simp [be, ih]

theorem beNat_be (k n : Nat) : beNat (be k n) = n % 256 ^ k := by
  induction k with
  | zero => simp [be, Nat.mod_one]
  | succ k ih =>
    rw [be, beNat_cons, ih, be_length, UInt8.toNat_ofNat']
    have h := Nat.mod_mul (x := n) (a := 256 ^ k) (b := 256)
    have e : (256 : Nat) ^ (k + 1) = 256 ^ k * 256 := pow_succ 256 k
    have e2 : (2 : Nat) ^ 8 = 256 := rfl
    rw [e, h, e2, Nat.mul_comm, Nat.add_comm]

theorem beNat_be_lt {k n : Nat} (h : n < 256 ^ k) : beNat (be k n) = n := by
  rw [beNat_be, Nat.mod_eq_of_lt h]

theorem be_beNat (bs : List UInt8) : be bs.length (beNat bs) = bs := by
  have key : ∀ (bs : List UInt8) (c : Nat), be bs.length (c * 256 ^ bs.length + beNat bs) = bs := by
    intro bs
    induction bs with
    | nil => intro c; rfl
    | cons b bs ih =>
      intro c
      rw [List.length_cons, be, beNat_cons]
      have hlt := beNat_lt bs
      have hp : 0 < 256 ^ bs.length := by positivity
      have e : c * 256 ^ (bs.length + 1) + (b.toNat * 256 ^ bs.length + beNat bs)
          = (c * 256 + b.toNat) * 256 ^ bs.length + beNat bs := by ring
      rw [e, ih]
      congr 1
      rw [Nat.mul_comm (c * 256 + b.toNat), Nat.mul_add_div hp, Nat.div_eq_of_lt hlt]
      apply UInt8.toNat_inj.mp
      rw [UInt8.toNat_ofNat']
      have := b.toNat_lt
      omega
  simpa using key bs 0

/-! ## Evaluating readers -/

namespace Rd

theorem bind_apply {α β : Type} (m : Rd α) (f : α → Rd β) (s : List UInt8) :
    (m >>= f) s = match m s with
      | .ok (a, s') => f a s'
      | .err => .err
      | .panic => .panic := rfl

@[simp] theorem pure_apply {α : Type} (a : α) (s : List UInt8) : (pure a : Rd α) s = .ok (a, s) := rfl
@[simp] theorem fail_apply {α : Type} (s : List UInt8) : (fail : Rd α) s = .err := rfl
@[simp] theorem crash_apply {α : Type} (s : List UInt8) : (crash : Rd α) s = .panic := rfl

theorem bind_of_ok {α β : Type} {m : Rd α} {f : α → Rd β} {s r : List UInt8} {a : α}
    (h : m s = .ok (a, r)) : (m >>= f) s = f a r := by
  rw [bind_apply, h]

theorem bind_of_err {α β : Type} {m : Rd α} {f : α → Rd β} {s : List UInt8}
    (h : m s = .err) : (m >>= f) s = .err := by
  rw [bind_apply, h]

theorem bind_of_panic {α β : Type} {m : Rd α} {f : α → Rd β} {s : List UInt8}
    (h : m s = .panic) : (m >>= f) s = .panic := by
  rw [bind_apply, h]

theorem bind_ok_iff {α β : Type} {m : Rd α} {f : α → Rd β} {s r : List UInt8} {b : β} :
    (m >>= f) s = .ok (b, r) ↔ ∃ a s', m s = .ok (a, s') ∧ f a s' = .ok (b, r) := by
  rw [bind_apply]
  cases h : m s with
  | ok p => obtain ⟨a, s'⟩ := p; simp
  | err => simp
  | panic => simp

theorem bind_panic_iff {α β : Type} {m : Rd α} {f : α → Rd β} {s : List UInt8} :
    (m >>= f) s = .panic ↔ m s = .panic ∨ ∃ a s', m s = .ok (a, s') ∧ f a s' = .panic := by
  rw [bind_apply]
  cases h : m s with
  | ok p => obtain ⟨a, s'⟩ := p; simp
  | err => simp
  | panic => simp

theorem ite_apply {α : Type} {p : Prop} [Decidable p] (m n : Rd α) (s : List UInt8) :
    (if p then m else n) s = if p then m s else n s := by split <;> rfl

theorem bytes_append {n : Nat} (a r : List UInt8) (h : a.length = n) :
    bytes n (a ++ r) = .ok (a, r) := by
  subst h
  simp [bytes]

theorem bytes_ok_iff {n : Nat} {s a r : List UInt8} :
    bytes n s = .ok (a, r) ↔ s = a ++ r ∧ a.length = n := by
  constructor
  · intro h
    unfold bytes at h
    split at h
    · rename_i hn
      simp only [Res.ok.injEq, Prod.mk.injEq] at h
      obtain ⟨rfl, rfl⟩ := h
      simp [hn]
    · simp at h
  · rintro ⟨rfl, h⟩
    exact bytes_append a r h

theorem bytes_ne_panic {n : Nat} {s : List UInt8} : bytes n s ≠ .panic := by
  unfold bytes; split <;> simp

theorem bytes_err_iff {n : Nat} {s : List UInt8} : bytes n s = .err ↔ s.length < n := by
  unfold bytes; split <;> simp <;> omega

theorem uint_eq (n : Nat) (s : List UInt8) :
    uint n s = if n ≤ s.length then .ok (beNat (s.take n), s.drop n) else .err := by
  unfold uint
  by_cases h : n ≤ s.length
  · rw [bind_of_ok (a := s.take n) (r := s.drop n) (by simp [bytes, h])]
    simp [h]
  · rw [bind_of_err (by simp [bytes, h])]
    simp [h]

theorem uint_be {k n : Nat} (h : n < 256 ^ k) (r : List UInt8) :
    uint k (be k n ++ r) = .ok (n, r) := by
  rw [uint_eq]; simp [beNat_be_lt h]

theorem uint_ok_iff {n v : Nat} {s r : List UInt8} :
    uint n s = .ok (v, r) ↔ ∃ a, s = a ++ r ∧ a.length = n ∧ beNat a = v := by
  unfold uint
  rw [bind_ok_iff]
  constructor
  · rintro ⟨a, s', h1, h2⟩
    obtain ⟨rfl, hl⟩ := bytes_ok_iff.mp h1
    simp only [pure_apply, Res.ok.injEq, Prod.mk.injEq] at h2
    obtain ⟨rfl, rfl⟩ := h2
    exact ⟨a, rfl, hl, rfl⟩
  · rintro ⟨a, rfl, hl, rfl⟩
    exact ⟨a, r, bytes_append a r hl, rfl⟩

theorem uint_ne_panic {n : Nat} {s : List UInt8} : uint n s ≠ .panic := by
  rw [uint_eq]; split <;> simp

theorem uint_bind {β : Type} {k n : Nat} (h : n < 256 ^ k) (f : Nat → Rd β) (r : List UInt8) :
    (uint k >>= f) (be k n ++ r) = f n r := bind_of_ok (uint_be h r)

theorem u8_bind {β : Type} {n : Nat} (h : n < 256) (f : Nat → Rd β) (r : List UInt8) :
    (u8 >>= f) (be 1 n ++ r) = f n r := bind_of_ok (uint_be (by omega) r)
theorem u16_bind {β : Type} {n : Nat} (h : n < 65536) (f : Nat → Rd β) (r : List UInt8) :
    (u16 >>= f) (be 2 n ++ r) = f n r := bind_of_ok (uint_be (by omega) r)
theorem u24_bind {β : Type} {n : Nat} (h : n < 16777216) (f : Nat → Rd β) (r : List UInt8) :
    (uint 3 >>= f) (be 3 n ++ r) = f n r := bind_of_ok (uint_be (by omega) r)
theorem u32_bind {β : Type} {n : Nat} (h : n < 4294967296) (f : Nat → Rd β) (r : List UInt8) :
    (u32 >>= f) (be 4 n ++ r) = f n r := bind_of_ok (uint_be (by omega) r)
theorem u64_bind {β : Type} {n : Nat} (h : n < 18446744073709551616) (f : Nat → Rd β)
    (r : List UInt8) :
    (u64 >>= f) (be 8 n ++ r) = f n r := bind_of_ok (uint_be (by omega) r)
theorem u128_bind {β : Type} {n : Nat} (h : n < 340282366920938463463374607431768211456)
    (f : Nat → Rd β) (r : List UInt8) :
    (uint 16 >>= f) (be 16 n ++ r) = f n r := bind_of_ok (uint_be (by omega) r)

theorem bytes_bind {β : Type} {n : Nat} (a : List UInt8) (h : a.length = n)
    (f : List UInt8 → Rd β) (r : List UInt8) :
    (bytes n >>= f) (a ++ r) = f a r := bind_of_ok (bytes_append a r h)

/-- Reading back a sequence of items written one after the other. -/
theorem times_flatMap {α ι : Type} {m : Rd α} (enc : ι → List UInt8) (dec : ι → α)
    (is : List ι) (h : ∀ i ∈ is, ∀ r, m (enc i ++ r) = .ok (dec i, r)) (r : List UInt8) :
    times m is.length (is.flatMap enc ++ r) = .ok (is.map dec, r) := by
  induction is with
  | nil => rfl
  | cons i is ih =>
    have ih := ih (fun j hj => h j (by simp [hj]))
    rw [List.length_cons, times, List.flatMap_cons, List.append_assoc,
      bind_of_ok (h i (by simp) _), bind_of_ok ih]
    rfl

/-! ## Readers that do not look ahead -/

/-- A successful run consumes a prefix `p` of the stream, would succeed in the same way with any
other continuation after `p`, and fails with an error on every strict prefix of `p`. -/
def Stable {α : Type} (m : Rd α) : Prop :=
  ∀ s a r, m s = .ok (a, r) → ∃ p, s = p ++ r ∧ (∀ r', m (p ++ r') = .ok (a, r')) ∧
    ∀ p', p' <+: p → p' ≠ p → m p' = .err

theorem stable_pure {α : Type} (a : α) : Stable (pure a : Rd α) := by
  intro s b r h
  simp only [pure_apply, Res.ok.injEq, Prod.mk.injEq] at h
  obtain ⟨rfl, rfl⟩ := h
  refine ⟨[], rfl, fun _ => rfl, ?_⟩
  intro p' hp hne
  exact absurd (List.prefix_nil.mp hp) hne

theorem stable_fail {α : Type} : Stable (fail : Rd α) := by intro s a r h; simp at h
theorem stable_crash {α : Type} : Stable (crash : Rd α) := by intro s a r h; simp at h

theorem stable_bytes (n : Nat) : Stable (bytes n) := by
  intro s a r h
  obtain ⟨rfl, hl⟩ := bytes_ok_iff.mp h
  refine ⟨a, rfl, fun r' => bytes_append a r' hl, ?_⟩
  intro p' hp hne
  rw [bytes_err_iff]
  have := hp.length_le
  rcases Nat.lt_or_ge p'.length n with h | h
  · exact h
  · exact absurd (hp.eq_of_length (by omega)) hne

theorem stable_bind {α β : Type} {m : Rd α} {f : α → Rd β} (hm : Stable m)
    (hf : ∀ a, Stable (f a)) : Stable (m >>= f) := by
  intro s b r h
  obtain ⟨a, s1, h1, h2⟩ := bind_ok_iff.mp h
  obtain ⟨p1, rfl, e1, t1⟩ := hm s a s1 h1
  obtain ⟨p2, rfl, e2, t2⟩ := hf a s1 b r h2
  refine ⟨p1 ++ p2, by simp, ?_, ?_⟩
  · intro r'
    rw [List.append_assoc, bind_of_ok (e1 _)]
    exact e2 r'
  · intro p' hp hne
    rcases Nat.lt_or_ge p'.length p1.length with hl | hl
    · have : p' <+: p1 := List.prefix_of_prefix_length_le hp (List.prefix_append _ _) (by omega)
      exact bind_of_err (t1 p' this (by intro h; subst h; omega))
    · have h1 : p1 <+: p' := List.prefix_of_prefix_length_le (List.prefix_append _ _) hp (by omega)
      obtain ⟨q, rfl⟩ := h1
      rw [bind_of_ok (e1 q)]
      apply t2
      · exact (List.prefix_append_right_inj p1).mp hp
      · intro hq; subst hq; exact hne rfl

theorem stable_ite {α : Type} {p : Prop} [Decidable p] {m n : Rd α} (hm : Stable m)
    (hn : Stable n) : Stable (if p then m else n) := by
  split <;> assumption

theorem stable_uint (n : Nat) : Stable (uint n) :=
  stable_bind (stable_bytes n) (fun _ => stable_pure _)
theorem stable_u8 : Stable u8 := stable_uint 1
theorem stable_u16 : Stable u16 := stable_uint 2
theorem stable_u32 : Stable u32 := stable_uint 4
theorem stable_u64 : Stable u64 := stable_uint 8

theorem stable_times {α : Type} {m : Rd α} (hm : Stable m) (n : Nat) : Stable (times m n) := by
  induction n with
  | zero => exact stable_pure _
  | succ n ih => exact stable_bind hm (fun _ => stable_bind ih (fun _ => stable_pure _))

/-- Dropping a failed read does no harm when the next thing done is reading a byte. -/
theorem bytesIgnoringError_then_u8 {β : Type} (n : Nat) (f : Nat → Rd β) :
    (bytesIgnoringError n >>= fun _ => (u8 >>= f)) = (bytes n >>= fun _ => (u8 >>= f)) := by
  funext s
  by_cases h : n ≤ s.length
  · rw [bind_of_ok (a := ()) (r := s.drop n) (by simp [bytesIgnoringError, h]),
      bind_of_ok (a := s.take n) (r := s.drop n) (by simp [bytes, h])]
  · rw [bind_of_ok (a := ()) (r := []) (by simp [bytesIgnoringError, h]),
      bind_of_err (m := bytes n) (by simp [bytes, h])]
    apply bind_of_err
    simp [u8, uint_eq]

/-- A reader that fails on the empty stream consumes at least one byte when it succeeds. -/
theorem Stable.consumes {α : Type} {m : Rd α} (hm : Stable m) (h0 : m [] = .err)
    {s r : List UInt8} {a : α} (h : m s = .ok (a, r)) : r.length < s.length := by
  obtain ⟨p, rfl, e, _⟩ := hm s a r h
  rcases p with _ | ⟨b, p⟩
  · have := e []
    simp [h0] at this
  · simp; omega

/-! ## Readers that never panic -/

/-- No stream makes the reader panic. -/
def Safe {α : Type} (m : Rd α) : Prop := ∀ s, m s ≠ .panic

theorem safe_pure {α : Type} (a : α) : Safe (pure a : Rd α) := by intro s; simp
theorem safe_fail {α : Type} : Safe (fail : Rd α) := by intro s; simp
theorem safe_bytes (n : Nat) : Safe (bytes n) := fun _ => bytes_ne_panic
theorem safe_bytesIgnoringError (n : Nat) : Safe (bytesIgnoringError n) := by
  intro s; unfold bytesIgnoringError; split <;> simp
theorem safe_bind {α β : Type} {m : Rd α} {f : α → Rd β} (hm : Safe m)
    (hf : ∀ a, Safe (f a)) : Safe (m >>= f) := by
  intro s h
  rcases bind_panic_iff.mp h with h | ⟨a, s', _, h⟩
  · exact hm s h
  · exact hf a s' h
theorem safe_ite {α : Type} {p : Prop} [Decidable p] {m n : Rd α} (hm : Safe m)
    (hn : Safe n) : Safe (if p then m else n) := by
  split <;> assumption
theorem safe_uint (n : Nat) : Safe (uint n) := safe_bind (safe_bytes n) (fun _ => safe_pure _)
theorem safe_times {α : Type} {m : Rd α} (hm : Safe m) (n : Nat) : Safe (times m n) := by
  induction n with
  | zero => exact safe_pure _
  | succ n ih => exact safe_bind hm (fun _ => safe_bind ih (fun _ => safe_pure _))

end Rd

/-! ## Words -/

theorem f32OfBits_bits (w : F32Word) (h : w.ok) : f32OfBits w.bits = w.value := by
  obtain ⟨he, hf⟩ := h
  have hs : w.bits / 2 ^ 31 % 2 = if w.sign then 1 else 0 := by
    unfold F32Word.bits; split <;> omega
  have hx : w.bits / 2 ^ 23 % 2 ^ 8 = w.exponent := by
    unfold F32Word.bits; split <;> omega
  have hm : w.bits % 2 ^ 23 = w.fraction := by
    unfold F32Word.bits; split <;> omega
  unfold f32OfBits F32Word.value
  simp only [hs, hx, hm]
  have hs1 : ((if w.sign = true then 1 else 0) = 1) ↔ w.sign = true := by cases w.sign <;> simp
  simp only [hs1]
  have hv : (if w.exponent = 0 then (w.fraction : Rat) * pow2 (-149)
      else ((w.fraction + 2 ^ 23 : Nat) : Rat) * pow2 ((w.exponent : Int) - 150)) =
      (if w.exponent = 0 then (2 : Rat) ^ (-126 : Int) * (w.fraction / 2 ^ 23)
      else (2 : Rat) ^ ((w.exponent : Int) - 127) * (1 + w.fraction / 2 ^ 23)) := by
    split
    · rw [pow2_eq]; norm_num; ring
    · rw [pow2_eq, show (w.exponent : Int) - 150 = ((w.exponent : Int) - 127) - 23 by ring,
        zpow_sub₀ (by norm_num)]
      push_cast
      norm_num
      ring
  rw [hv]

theorem signedOfBits_twos {d : Int} (h1 : -128 ≤ d) (h2 : d < 128) :
    signedOfBits 8 (Spec.Grib2.twosComplement8 d) = d := by
  unfold signedOfBits Spec.Grib2.twosComplement8
  split <;> omega

end Verif
