import Verif.Lemmas.BuildSim
import Verif.Lemmas.Grib2Panic
import Verif.Props.Grib2Sound

/-!
# Reading GRIB2 messages without overflow checks
-/

namespace Verif.Grib2.Release

open Verif Rd Spec.Grib2

local macro "step" h:ident x:ident r:ident e:ident : tactic =>
  `(tactic| (replace $h := bind_ok_iff.mp $h; obtain ⟨$x, $r, $e, $h⟩ := $h))

/-! ## The sections 1 and 2 -/

theorem bind_congr_right {α β : Type} (m : Rd α) {f g : α → Rd β} (h : ∀ a, f a = g a) : (m >>= f) = (m >>= g) := by
  rw [funext h]

theorem u32_bind_congr {β : Type} {f g : Nat → Rd β} (h : ∀ l < 2 ^ 32, f l = g l) : (u32 >>= f) = (u32 >>= g) := by
  funext s
  rw [bind_apply, bind_apply]
  cases hs : u32 s with
  | ok r =>
    obtain ⟨l, s'⟩ := r
    simp only
    rw [h l (uint_split hs).1]
  | err => rfl
  | panic => rfl

theorem bytesAlloc_wrap {l k : Nat} (hl : l < 2 ^ 32) (hk : k ≤ 21) :
    bytesAlloc (wrapSub64 l k) = if l < k then crash else bytes (l - k) := by
  unfold bytesAlloc wrapSub64
  by_cases h : l < k
  · rw [if_neg (show ¬ k ≤ l by omega), if_pos h, if_pos (by omega)]
  · rw [if_pos (show k ≤ l by omega), if_neg h, if_neg (by omega)]

theorem ite_crash_bind {α β : Type} {p : Prop} [Decidable p] {x : Rd α} {f : α → Rd β} :
    ((if p then crash else x) >>= f) = if p then crash else x >>= f := by
  split
  · rfl
  · rfl

theorem readSection1_eq : Release.readSection1 = Grib2.readSection1 := by
  unfold Release.readSection1 Grib2.readSection1
  refine u32_bind_congr fun l hl => ?_
  rw [bytesAlloc_wrap hl (by omega)]
  simp only [ite_crash_bind]

theorem readSection2_eq : Release.readSection2 = Grib2.readSection2 := by
  unfold Release.readSection2 Grib2.readSection2
  refine u32_bind_congr fun l hl => ?_
  rw [bytesAlloc_wrap hl (by omega)]
  simp only [ite_crash_bind]

/-! ## Agreement -/

/-- The second reader agrees with the first one unless that panics. -/
def RSim {α : Type} (m m' : Rd α) : Prop := ∀ s, Res.Sim (m s) (m' s)

theorem RSim.refl {α : Type} (m : Rd α) : RSim m m := fun _ => .refl _

theorem RSim.bind {α β : Type} {m m' : Rd α} {f f' : α → Rd β} (h : RSim m m') (hf : ∀ a, RSim (f a) (f' a)) :
    RSim (m >>= f) (m' >>= f') := by
  intro s hp
  have h1 := h s
  rw [bind_apply] at hp
  rw [bind_apply, bind_apply]
  cases hs : m s with
  | ok r =>
    obtain ⟨a, s'⟩ := r
    rw [hs] at hp h1
    rw [h1 (by simp)]
    exact hf a s' hp
  | err => rw [hs] at h1; rw [h1 (by simp)]
  | panic => rw [hs] at hp; exact absurd rfl hp

theorem RSim.bind_u32 {β : Type} {f f' : Nat → Rd β} (hf : ∀ l < 2 ^ 32, RSim (f l) (f' l)) :
    RSim (u32 >>= f) (u32 >>= f') := by
  intro s hp
  rw [bind_apply] at hp
  rw [bind_apply, bind_apply]
  cases hs : u32 s with
  | ok r =>
    obtain ⟨a, s'⟩ := r
    rw [hs] at hp
    exact hf a (uint_split hs).1 s' hp
  | err => rfl
  | panic => rfl

theorem RSim.crash {α : Type} (m : Rd α) : RSim (Rd.crash : Rd α) m := fun _ hp => absurd rfl hp

theorem wrapSub32_eq {l k : Nat} (hl : l < 2 ^ 32) (hk : k ≤ l) : wrapSub32 l k = l - k := by
  unfold wrapSub32; omega

theorem sim4 : RSim Grib2.readSection4 Release.readSection4 := by
  unfold Grib2.readSection4 Release.readSection4
  refine .bind_u32 fun l hl => .bind (.refl _) fun n => .bind (.refl _) fun c => .bind (.refl _) fun t => ?_
  split
  · exact .crash _
  · rw [wrapSub32_eq hl (by omega)]; exact .refl _

theorem sim5 : RSim Grib2.readSection5 Release.readSection5 := by
  unfold Grib2.readSection5 Release.readSection5
  refine .bind_u32 fun l hl => .bind (.refl _) fun n => .bind (.refl _) fun c => .bind (.refl _) fun t => ?_
  split
  · exact .crash _
  · rw [wrapSub32_eq hl (by omega)]; exact .refl _

theorem sim6 : RSim Grib2.readSection6 Release.readSection6 := by
  unfold Grib2.readSection6 Release.readSection6
  refine .bind_u32 fun l hl => .bind (.refl _) fun n => .bind (.refl _) fun c => ?_
  split
  · exact .crash _
  · rw [wrapSub32_eq hl (by omega)]; exact .refl _

theorem sim7 : RSim Grib2.readSection7 Release.readSection7 := by
  unfold Grib2.readSection7 Release.readSection7
  refine .bind_u32 fun l hl => .bind (.refl _) fun n => ?_
  split
  · exact .crash _
  · rw [wrapSub32_eq hl (by omega)]; exact .refl _

theorem simDoc : RSim Grib2.readSingleDoc Release.readSingleDoc := by
  unfold Grib2.readSingleDoc Release.readSingleDoc
  rw [readSection1_eq, readSection2_eq]
  exact .bind (.refl _) fun _ => .bind (.refl _) fun _ => .bind (.refl _) fun _ => .bind (.refl _) fun _ =>
    .bind sim4 fun _ => .bind sim5 fun _ => .bind sim6 fun _ => .bind sim7 fun _ => .refl _

/-! ## Panics -/

theorem safe4 : Safe Release.readSection4 := by
  have := safe_product
  unfold Release.readSection4 u8 u16 u32
  refine safe_bind (safe_uint _) fun _ => safe_bind (safe_uint _) fun _ => safe_bind (safe_uint _) fun _ =>
    safe_bind (safe_uint _) fun _ => safe_bind (safe_product _ _) fun _ => ?_
  safe

theorem safe5 : Safe Release.readSection5 := by
  unfold Release.readSection5 u8 u16 u32
  refine safe_bind (safe_uint _) fun _ => safe_bind (safe_uint _) fun _ => safe_bind (safe_uint _) fun _ =>
    safe_bind (safe_uint _) fun _ => safe_bind (safe_data _ _) fun _ => ?_
  safe

theorem safe6 : Safe Release.readSection6 := by
  unfold Release.readSection6 u8 u32
  exact safe_bind (safe_uint _) fun _ => safe_bind (safe_uint _) fun _ => safe_bind (safe_uint _) fun _ =>
    safe_bind (safe_bytes _) fun _ => safe_ite safe_fail (safe_pure _)

theorem safe7 : Safe Release.readSection7 := by
  unfold Release.readSection7 u8 u16 u32
  exact safe_bind (safe_uint _) fun _ => safe_bind (safe_uint _) fun _ => safe_bind (safe_times (safe_uint _) _) fun _ =>
    safe_ite safe_fail (safe_pure _)

theorem panic_iff (s : List UInt8) : Release.readSingleDoc s = .panic ↔
    ∃ d0 s1, readSection0 s = .ok (d0, s1) ∧
      (readSection1 s1 = .panic ∨ ∃ d1 s2, readSection1 s1 = .ok (d1, s2) ∧ readSection2 s2 = .panic) := by
  unfold Release.readSingleDoc
  rw [readSection1_eq, readSection2_eq, bind_panic_iff]
  have tail : ∀ d0 d1 d2, Safe (do
      let section3 ← readSection3
      let section4 ← Release.readSection4
      let section5 ← Release.readSection5
      let section6 ← Release.readSection6
      let section7 ← Release.readSection7
      readSection8
      pure { section0 := d0, section1 := d1, section2 := d2, section3, section4, section5, section6, section7 : Document }) :=
    fun _ _ _ => safe_bind safe_section3 fun _ => safe_bind safe4 fun _ => safe_bind safe5 fun _ =>
      safe_bind safe6 fun _ => safe_bind safe7 fun _ => safe_bind safe_section8 fun _ => safe_pure _
  constructor
  · rintro (h | ⟨d0, s1, h0, h⟩)
    · exact absurd h (safe_section0 _)
    · refine ⟨d0, s1, h0, ?_⟩
      rcases bind_panic_iff.mp h with h | ⟨d1, s2, h1, h⟩
      · exact .inl h
      · rcases bind_panic_iff.mp h with h | ⟨d2, s3, h2, h⟩
        · exact .inr ⟨d1, s2, h1, h⟩
        · exact absurd h (tail _ _ _ _)
  · rintro ⟨d0, s1, h0, h | ⟨d1, s2, h1, h⟩⟩
    · exact .inr ⟨d0, s1, h0, bind_panic_iff.mpr (.inl h)⟩
    · exact .inr ⟨d0, s1, h0, bind_panic_iff.mpr (.inr ⟨d1, s2, h1, bind_panic_iff.mpr (.inl h)⟩)⟩

/-! ## Accepted messages -/

theorem section4_split {a : Section4} {s r : List UInt8} (hs : s.length < 2 ^ 32 - 11)
    (h : Release.readSection4 s = .ok (a, r)) :
    ∃ (length : Nat) (p : Product) (ws : List F32Word),
      length < 2 ^ 32 ∧ productOk p ∧ ws.length < 2 ^ 16 ∧ (∀ w ∈ ws, w.ok) ∧
      (∀ k c, p = .other k c → length = 9 + c.length) ∧ a = ⟨length, ws.map F32Word.value, productDoc p⟩ ∧
      s = be 4 length ++ be 1 4 ++ be 2 ws.length ++ be 2 (productNumber p) ++ encProduct p
        ++ ws.flatMap (fun w => be 4 w.bits) ++ r := by
  unfold Release.readSection4 at h
  step h length s1 e1
  step h number s2 e2
  step h count s3 e3
  step h tpl s4 e4
  step h t s5 e5
  step h words s6 e6
  by_cases hn : number = 4
  · rw [if_neg (by simp [hn])] at h
    obtain ⟨rfl, rfl⟩ := pure_ok h
    obtain ⟨p, hp, pn, rfl, pc, q⟩ := product_split (uint_split e4).1 e5
    obtain ⟨wl, wb, wq⟩ := times_split _ e6
    have hs' : ∀ n ∈ words, _ := fun n hn => word32_bits (wb n hn)
    have e : (words.map word32).flatMap (fun w => be 4 w.bits) = words.flatMap (be 4) :=
      flatMap_congr' _ _ _ words (fun n hn => by rw [(hs' n hn).1])
    have ev : words.map f32OfBits = (words.map word32).map F32Word.value := by
      rw [List.map_map]
      apply List.map_congr_left
      intro n hn
      rw [Function.comp_apply, ← f32OfBits_bits _ (hs' n hn).2, (hs' n hn).1]
    have hl := (uint_split e1).1
    refine ⟨length, p, words.map word32, hl, hp, ?_, ?_, ?_, by rw [ev], ?_⟩
    · rw [List.length_map, wl]; exact (uint_split e3).1
    · intro w hw
      obtain ⟨n, hn, rfl⟩ := List.mem_map.mp hw
      exact (hs' n hn).2
    · intro k c hc
      have h1 := pc k c hc
      have l1 := uint_len e1
      have l2 := uint_len e2
      have l3 := uint_len e3
      have l4 := uint_len e4
      have l5 := congrArg List.length q
      rw [hc] at l5
      simp only [encProduct, List.length_append] at l5
      have h3 : c.length < 2 ^ 32 - 11 := by omega
      rw [h1] at h3
      unfold wrapSub32 at h1 h3
      omega
    · rw [e, pn, List.length_map, wl, (uint_split e1).2, (uint_split e2).2, (uint_split e3).2, (uint_split e4).2, q,
        wq, hn]
      simp only [List.append_assoc]
  · rw [if_pos hn] at h; simp at h

theorem section5_split {a : Section5} {s r : List UInt8} (hs : s.length < 2 ^ 32 - 11)
    (h : Release.readSection5 s = .ok (a, r)) :
    ∃ (length values : Nat) (p : Packing) (e : List UInt8),
      length < 2 ^ 32 ∧ values < 2 ^ 32 ∧ packingOk p ∧
      (∀ k c, p = .other k c → length = 11 + c.length) ∧ IsPacking p e ∧ a = ⟨length, values, packingDoc p⟩ ∧
      s = be 4 length ++ be 1 5 ++ be 4 values ++ be 2 (packingNumber p) ++ e ++ r := by
  unfold Release.readSection5 at h
  step h length s1 e1
  step h number s2 e2
  step h values s3 e3
  step h tpl s4 e4
  step h t s5 e5
  by_cases hn : number = 5
  · rw [if_neg (by simp [hn])] at h
    obtain ⟨rfl, rfl⟩ := pure_ok h
    obtain ⟨p, e, hp, pn, rfl, pc, pe, q⟩ := packing_split (uint_split e4).1 e5
    have hl := (uint_split e1).1
    refine ⟨length, values, p, e, hl, (uint_split e3).1, hp, ?_, pe, rfl, ?_⟩
    · intro k c hc
      have h1 := pc k c hc
      have l1 := uint_len e1
      have l2 := uint_len e2
      have l3 := uint_len e3
      have l4 := uint_len e4
      have l5 := congrArg List.length q
      rw [hc] at pe
      rw [show e = c from pe] at l5
      simp only [List.length_append] at l5
      have h3 : c.length < 2 ^ 32 - 11 := by omega
      rw [h1] at h3
      unfold wrapSub32 at h1 h3
      omega
    · rw [pn, (uint_split e1).2, (uint_split e2).2, (uint_split e3).2, (uint_split e4).2, q, hn]
      simp only [List.append_assoc]
  · rw [if_pos hn] at h; simp at h

/-- Without checks the sections 6 and 7 of a stream that is not huge are read as with checks. -/
theorem section6_ok {a : Section6} {s r : List UInt8} (hs : s.length < 2 ^ 32 - 11)
    (h : Release.readSection6 s = .ok (a, r)) : Grib2.readSection6 s = .ok (a, r) := by
  have h0 := h
  unfold Release.readSection6 at h
  step h length s1 e1
  step h number s2 e2
  step h ind s3 e3
  step h bm s4 e4
  have hl := (uint_split e1).1
  have l1 := uint_len e1
  have l2 := uint_len e2
  have l3 := uint_len e3
  have l4 := bytes_len e4
  have h6 : 6 ≤ length := by
    unfold wrapSub32 at l4
    by_contra hc
    have : (length + 2 ^ 32 - 6) % 2 ^ 32 = length + 2 ^ 32 - 6 := Nat.mod_eq_of_lt (by omega)
    omega
  cases hq : Grib2.readSection6 s with
  | ok x => rw [← hq, ← sim6 s (by rw [hq]; simp), h0]
  | err => rw [sim6 s (by rw [hq]; simp), hq] at h0; exact absurd h0 (by simp)
  | panic =>
    obtain ⟨g1, g2⟩ := (section6_panic_iff s).mp hq
    have e := uint_inv e1
    rw [e.2.1, take4 (by omega)] at h6
    omega

theorem section7_ok {a : Section7} {s r : List UInt8} (hs : s.length < 2 ^ 32 - 11)
    (h : Release.readSection7 s = .ok (a, r)) : Grib2.readSection7 s = .ok (a, r) := by
  have h0 := h
  unfold Release.readSection7 at h
  step h length s1 e1
  step h number s2 e2
  step h data s4 e4
  have hl := (uint_split e1).1
  have l1 := uint_len e1
  have l2 := uint_len e2
  have l4 := times_len (k := 2) (fun _ _ _ h => uint_len h) _ e4
  have h6 : 5 ≤ length := by
    unfold wrapSub32 at l4
    by_contra hc
    have : (length + 2 ^ 32 - 5) % 2 ^ 32 = length + 2 ^ 32 - 5 := Nat.mod_eq_of_lt (by omega)
    omega
  cases hq : Grib2.readSection7 s with
  | ok x => rw [← hq, ← sim7 s (by rw [hq]; simp), h0]
  | err => rw [sim7 s (by rw [hq]; simp), hq] at h0; exact absurd h0 (by simp)
  | panic =>
    obtain ⟨g1, g2⟩ := (section7_panic_iff s).mp hq
    have e := uint_inv e1
    rw [e.2.1, take4 (by omega)] at h6
    omega

theorem stable_len {α : Type} {m : Rd α} (hm : Stable m) {s r : List UInt8} {a : α} (h : m s = .ok (a, r)) :
    r.length ≤ s.length := by
  obtain ⟨p, rfl, -⟩ := hm s a r h
  simp

end Verif.Grib2.Release
