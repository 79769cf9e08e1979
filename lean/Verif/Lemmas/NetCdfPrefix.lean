import Verif.Lemmas.NetCdf

/-!
# Lemmas about incomplete NetCDF files and about crashes of the NetCDF reader

Skipping padding does not fail at the end of the file, so the readers are not `Stable`; the weaker
notions here suffice.
-/

namespace Verif

open Spec.Grib2 (be)

namespace Rd

/-- On an incomplete stream the reader fails, or gives the same result. -/
def Good {α : Type} (m : Rd α) : Prop :=
  ∀ s k a r, m (s ++ k) = .ok (a, r) → m s = .err ∨ ∃ r', m s = .ok (a, r') ∧ r = r' ++ k

/-- On an incomplete stream the reader fails, or gives the same result, or gives the same result
and stands at the end. -/
def Weak {α : Type} (m : Rd α) : Prop :=
  (∀ s k a r, m (s ++ k) = .ok (a, r) →
    m s = .err ∨ (∃ r', m s = .ok (a, r') ∧ r = r' ++ k) ∨ m s = .ok (a, [])) ∧
  ∀ s a r, m s = .ok (a, r) → r.length ≤ s.length

theorem Stable.good {α : Type} {m : Rd α} (hm : Stable m) : Good m := by
  intro s k a r h
  obtain ⟨p, e, h1, h2⟩ := hm _ _ _ h
  rcases Nat.lt_or_ge s.length p.length with hl | hl
  · left
    apply h2
    · exact List.prefix_of_prefix_length_le ⟨k, e⟩ (List.prefix_append _ _) (by omega)
    · intro hc; subst hc; omega
  · right
    have hp : p <+: s := List.prefix_of_prefix_length_le (List.prefix_append p r) ⟨k, e⟩ hl
    obtain ⟨q, rfl⟩ := hp
    refine ⟨q, h1 q, ?_⟩
    rw [List.append_assoc] at e
    exact (List.append_cancel_left e).symm

theorem Stable.weak {α : Type} {m : Rd α} (hm : Stable m) : Weak m := by
  refine ⟨fun s k a r h => (hm.good s k a r h).imp id Or.inl, ?_⟩
  intro s a r h
  obtain ⟨p, rfl, -⟩ := hm _ _ _ h
  simp

theorem good_bind {α β : Type} {m : Rd α} {f : α → Rd β} (hm : Good m) (hf : ∀ a, Good (f a)) :
    Good (m >>= f) := by
  intro s k b r h
  obtain ⟨a, s1, h1, h2⟩ := bind_ok_iff.mp h
  rcases hm s k a s1 h1 with h | ⟨r', h, rfl⟩
  · exact .inl (bind_of_err h)
  · rw [bind_of_ok h]
    exact hf a r' k b r h2

theorem weak_bind {α β : Type} {m : Rd α} {f : α → Rd β} (hm : Weak m) (hf : ∀ a, Weak (f a)) :
    Weak (m >>= f) := by
  refine ⟨?_, ?_⟩
  · intro s k b r h
    obtain ⟨a, s1, h1, h2⟩ := bind_ok_iff.mp h
    rcases hm.1 s k a s1 h1 with h | ⟨r', h, rfl⟩ | h
    · exact .inl (bind_of_err h)
    · rw [bind_of_ok h]
      exact (hf a).1 r' k b r h2
    · rw [bind_of_ok h]
      rcases (hf a).1 [] s1 b r (by simpa using h2) with h3 | ⟨r', h3, rfl⟩ | h3
      · exact .inl h3
      · have := (hf a).2 _ _ _ h2
        have e : r' = [] := List.length_eq_zero_iff.1 (by rw [List.length_append] at this; omega)
        subst e
        exact .inr (.inr h3)
      · exact .inr (.inr h3)
  · intro s b r h
    obtain ⟨a, s1, h1, h2⟩ := bind_ok_iff.mp h
    have := hm.2 _ _ _ h1
    have := (hf a).2 _ _ _ h2
    omega

/-- What follows padding fails at the end of the stream. -/
theorem weak_bind_good {α β : Type} {m : Rd α} {f : α → Rd β} (hm : Weak m)
    (hf : ∀ a, Good (f a)) (h0 : ∀ a, f a [] = .err) : Good (m >>= f) := by
  intro s k b r h
  obtain ⟨a, s1, h1, h2⟩ := bind_ok_iff.mp h
  rcases hm.1 s k a s1 h1 with h | ⟨r', h, rfl⟩ | h
  · exact .inl (bind_of_err h)
  · rw [bind_of_ok h]
    exact hf a r' k b r h2
  · rw [bind_of_ok h]
    exact .inl (h0 a)

theorem good_times {α : Type} {m : Rd α} (hm : Good m) (n : Nat) : Good (times m n) := by
  induction n with
  | zero => exact (stable_pure _).good
  | succ n ih => exact good_bind hm (fun _ => good_bind ih (fun _ => (stable_pure _).good))

theorem weak_times {α : Type} {m : Rd α} (hm : Weak m) (n : Nat) : Weak (times m n) := by
  induction n with
  | zero => exact (stable_pure _).weak
  | succ n ih => exact weak_bind hm (fun _ => weak_bind ih (fun _ => (stable_pure _).weak))

theorem u32_nil_bind {β : Type} (f : Nat → Rd β) : (u32 >>= f) [] = .err :=
  bind_of_err (by decide)

/-- Two readers that agree except that the first may panic where the second fails. -/
def Agree {α : Type} (m m' : Rd α) : Prop := ∀ s, m s = m' s ∨ (m s = .panic ∧ m' s = .err)

theorem agree_refl {α : Type} (m : Rd α) : Agree m m := fun _ => .inl rfl

theorem agree_bind {α β : Type} {m m' : Rd α} {f f' : α → Rd β} (hm : Agree m m')
    (hf : ∀ a, Agree (f a) (f' a)) : Agree (m >>= f) (m' >>= f') := by
  intro s
  rcases hm s with h | ⟨h1, h2⟩
  · cases e : m' s with
    | ok p =>
      obtain ⟨a, r⟩ := p
      rw [bind_of_ok e, bind_of_ok (h.trans e)]
      exact hf a r
    | err => rw [bind_of_err e, bind_of_err (h.trans e)]; exact .inl rfl
    | panic => rw [bind_of_panic e, bind_of_panic (h.trans e)]; exact .inl rfl
  · exact .inr ⟨bind_of_panic h1, bind_of_err h2⟩

theorem agree_ite {α : Type} {p : Prop} [Decidable p] {m m' n n' : Rd α} (hm : Agree m m')
    (hn : Agree n n') : Agree (if p then m else n) (if p then m' else n') := by
  split <;> assumption

theorem agree_times {α : Type} {m m' : Rd α} (hm : Agree m m') (n : Nat) :
    Agree (times m n) (times m' n) := by
  induction n with
  | zero => exact agree_refl _
  | succ n ih => exact agree_bind hm (fun _ => agree_bind ih (fun _ => agree_refl _))

end Rd

namespace NetCdf

open Rd

theorem weak_skip (n : Nat) : Weak (skip n) := by
  refine ⟨?_, ?_⟩
  · intro s k a r h
    simp only [skip, Res.ok.injEq, Prod.mk.injEq] at h ⊢
    obtain ⟨-, rfl⟩ := h
    right
    rcases Nat.lt_or_ge s.length n with hl | hl
    · exact .inr ⟨trivial, List.drop_eq_nil_of_le (by omega)⟩
    · exact .inl ⟨s.drop n, ⟨trivial, rfl⟩, List.drop_append_of_le_length hl⟩
  · intro s a r h
    simp only [skip, Res.ok.injEq, Prod.mk.injEq] at h
    rw [← h.2]
    simp

theorem weak_readPadding (len size : Nat) : Weak (readPadding len size) := by
  unfold readPadding
  split
  · exact weak_skip _
  · exact (stable_pure _).weak

theorem stable_readNChars (n : Nat) : Stable (readNChars n) :=
  stable_bind (stable_bytes n) (fun _ => stable_ite (stable_pure _) stable_fail)

theorem weak_readName : Weak readName :=
  weak_bind stable_u32.weak fun _ => weak_bind (stable_readNChars _).weak fun _ =>
    weak_bind (weak_readPadding _ _) fun _ => (stable_pure _).weak

theorem stable_readValueType {u : Rd ValueType} (hu : Stable u) : Stable (readValueType u) :=
  stable_bind stable_u32 fun _ =>
    stable_ite (stable_pure _) (stable_ite (stable_pure _) (stable_ite (stable_pure _)
      (stable_ite (stable_pure _) (stable_ite (stable_pure _) (stable_ite (stable_pure _) hu)))))

theorem weak_readValues (n : Nat) (ty : ValueType) : Weak (readValues n ty) := by
  cases ty
  · exact weak_bind (stable_bytes n).weak fun _ => weak_bind (weak_readPadding _ _) fun _ => (stable_pure _).weak
  · exact weak_bind (stable_times stable_u8 n).weak fun _ =>
      weak_bind (weak_readPadding _ _) fun _ => (stable_pure _).weak
  · exact weak_bind (stable_times stable_u16 n).weak fun _ =>
      weak_bind (weak_readPadding _ _) fun _ => (stable_pure _).weak
  · exact weak_bind (stable_times stable_u32 n).weak fun _ => (stable_pure _).weak
  · exact weak_bind (stable_times stable_u32 n).weak fun _ => (stable_pure _).weak
  · exact weak_bind (stable_times stable_u64 n).weak fun _ => (stable_pure _).weak

theorem weak_readAttr {u : Rd ValueType} (hu : Stable u) : Weak (readAttr u) :=
  weak_bind weak_readName fun _ => weak_bind (stable_readValueType hu).weak fun _ =>
    weak_bind stable_u32.weak fun _ => weak_bind (weak_readValues _ _) fun _ => (stable_pure _).weak

theorem weak_ite {α : Type} {p : Prop} [Decidable p] {m n : Rd α} (hm : Weak m)
    (hn : Weak n) : Weak (if p then m else n) := by
  split <;> assumption

theorem good_ite {α : Type} {p : Prop} [Decidable p] {m n : Rd α} (hm : Good m)
    (hn : Good n) : Good (if p then m else n) := by
  split <;> assumption

theorem weak_readList {α : Type} {tag : Nat} {item : Rd α} (h : Weak item) : Weak (readList tag item) :=
  weak_bind stable_u32.weak fun _ => weak_bind stable_u32.weak fun _ =>
    weak_ite (stable_pure _).weak (weak_ite (weak_times h _) stable_fail.weak)

theorem good_readList {α : Type} {tag : Nat} {item : Rd α} (h : Good item) : Good (readList tag item) :=
  good_bind stable_u32.good fun _ => good_bind stable_u32.good fun _ =>
    good_ite (stable_pure _).good (good_ite (good_times h _) stable_fail.good)

theorem good_readDim : Good readDim :=
  weak_bind_good weak_readName
    (fun _ => good_bind stable_u32.good fun _ => (stable_pure _).good) (fun _ => u32_nil_bind _)

theorem readList_nil {α β : Type} {tag : Nat} {item : Rd α} (f : List α → Rd β) :
    (readList tag item >>= f) [] = .err := bind_of_err (u32_nil_bind _)

theorem good_readVar {u : Rd ValueType} (hu : Stable u) : Good (readVar u) := by
  refine weak_bind_good weak_readName (fun _ => good_bind stable_u32.good fun _ =>
    good_bind (stable_times stable_u32 _).good fun _ =>
      weak_bind_good (weak_readList (weak_readAttr hu)) (fun _ =>
        good_bind (stable_readValueType hu).good fun _ => good_bind stable_u32.good fun _ =>
          good_bind stable_u64.good fun _ => (stable_pure _).good) ?_) (fun _ => u32_nil_bind _)
  intro _
  exact bind_of_err (u32_nil_bind _)

theorem stable_lift {α : Type} (x : Res α) : Stable (lift x) := by
  cases x
  · exact stable_pure _
  · exact stable_fail
  · exact stable_crash

theorem stable_readMagic : Stable readMagic :=
  stable_bind (stable_readNChars _) fun _ => stable_bind stable_u8 fun _ => stable_lift _

theorem good_readHeader {u : Rd ValueType} (hu : Stable u) : Good (readHeaderWith u) :=
  good_bind stable_readMagic.good fun _ => good_bind stable_u32.good fun _ =>
    good_bind (good_readList good_readDim) fun _ =>
      weak_bind_good (weak_readList (weak_readAttr hu))
        (fun _ => good_bind (good_readList (good_readVar hu)) fun _ => (stable_pure _).good)
        (fun _ => readList_nil _)

/-! ## Crashes -/

theorem safe_skip (n : Nat) : Safe (skip n) := by intro s; simp [skip]
theorem safe_readPadding (len size : Nat) : Safe (readPadding len size) := by
  unfold readPadding; split
  · exact safe_skip _
  · exact safe_pure _
theorem safe_readNChars (n : Nat) : Safe (readNChars n) :=
  safe_bind (safe_bytes n) (fun _ => safe_ite (safe_pure _) safe_fail)
theorem safe_readName : Safe readName :=
  safe_bind (safe_uint 4) fun _ => safe_bind (safe_readNChars _) fun _ =>
    safe_bind (safe_readPadding _ _) fun _ => safe_pure _
theorem safe_readValueType {u : Rd ValueType} (hu : Safe u) : Safe (readValueType u) :=
  safe_bind (safe_uint 4) fun _ =>
    safe_ite (safe_pure _) (safe_ite (safe_pure _) (safe_ite (safe_pure _)
      (safe_ite (safe_pure _) (safe_ite (safe_pure _) (safe_ite (safe_pure _) hu)))))
theorem safe_readValues (n : Nat) (ty : ValueType) : Safe (readValues n ty) := by
  cases ty
  · exact safe_bind (safe_bytes n) fun _ => safe_bind (safe_readPadding _ _) fun _ => safe_pure _
  · exact safe_bind (safe_times (safe_uint 1) n) fun _ => safe_bind (safe_readPadding _ _) fun _ => safe_pure _
  · exact safe_bind (safe_times (safe_uint 2) n) fun _ => safe_bind (safe_readPadding _ _) fun _ => safe_pure _
  · exact safe_bind (safe_times (safe_uint 4) n) fun _ => safe_pure _
  · exact safe_bind (safe_times (safe_uint 4) n) fun _ => safe_pure _
  · exact safe_bind (safe_times (safe_uint 8) n) fun _ => safe_pure _
theorem safe_readAttr {u : Rd ValueType} (hu : Safe u) : Safe (readAttr u) :=
  safe_bind safe_readName fun _ => safe_bind (safe_readValueType hu) fun _ =>
    safe_bind (safe_uint 4) fun _ => safe_bind (safe_readValues _ _) fun _ => safe_pure _
theorem safe_readList {α : Type} {tag : Nat} {item : Rd α} (h : Safe item) : Safe (readList tag item) :=
  safe_bind (safe_uint 4) fun _ => safe_bind (safe_uint 4) fun _ =>
    safe_ite (safe_pure _) (safe_ite (safe_times h _) safe_fail)
theorem safe_readDim : Safe readDim :=
  safe_bind safe_readName fun _ => safe_bind (safe_uint 4) fun _ => safe_pure _
theorem safe_readVar {u : Rd ValueType} (hu : Safe u) : Safe (readVar u) :=
  safe_bind safe_readName fun _ => safe_bind (safe_uint 4) fun _ =>
    safe_bind (safe_times (safe_uint 4) _) fun _ => safe_bind (safe_readList (safe_readAttr hu)) fun _ =>
      safe_bind (safe_readValueType hu) fun _ => safe_bind (safe_uint 4) fun _ =>
        safe_bind (safe_uint 8) fun _ => safe_pure _
theorem safe_readMagic : Safe readMagic := by
  refine safe_bind (safe_readNChars _) fun m => safe_bind (safe_uint 1) fun v => ?_
  intro s
  unfold lift Magic.new
  split <;> rename_i h
  all_goals try (simp; done)
  split at h
  · cases h
  · split at h <;> cases h
theorem safe_readHeader {u : Rd ValueType} (hu : Safe u) : Safe (readHeaderWith u) :=
  safe_bind safe_readMagic fun _ => safe_bind (safe_uint 4) fun _ =>
    safe_bind (safe_readList safe_readDim) fun _ => safe_bind (safe_readList (safe_readAttr hu)) fun _ =>
      safe_bind (safe_readList (safe_readVar hu)) fun _ => safe_pure _

theorem agree_readValueType {u u' : Rd ValueType} (hu : Agree u u') :
    Agree (readValueType u) (readValueType u') :=
  agree_bind (agree_refl _) fun _ =>
    agree_ite (agree_refl _) (agree_ite (agree_refl _) (agree_ite (agree_refl _)
      (agree_ite (agree_refl _) (agree_ite (agree_refl _) (agree_ite (agree_refl _) hu)))))
theorem agree_readAttr {u u' : Rd ValueType} (hu : Agree u u') : Agree (readAttr u) (readAttr u') :=
  agree_bind (agree_refl _) fun _ => agree_bind (agree_readValueType hu) fun _ => agree_refl _
theorem agree_readList {α : Type} {tag : Nat} {i i' : Rd α} (h : Agree i i') :
    Agree (readList tag i) (readList tag i') :=
  agree_bind (agree_refl _) fun _ => agree_bind (agree_refl _) fun _ =>
    agree_ite (agree_refl _) (agree_ite (agree_times h _) (agree_refl _))
theorem agree_readVar {u u' : Rd ValueType} (hu : Agree u u') : Agree (readVar u) (readVar u') :=
  agree_bind (agree_refl _) fun _ => agree_bind (agree_refl _) fun _ =>
    agree_bind (agree_refl _) fun _ => agree_bind (agree_readList (agree_readAttr hu)) fun _ =>
      agree_bind (agree_readValueType hu) fun _ => agree_refl _
theorem agree_readHeader {u u' : Rd ValueType} (hu : Agree u u') :
    Agree (readHeaderWith u) (readHeaderWith u') :=
  agree_bind (agree_refl _) fun _ => agree_bind (agree_refl _) fun _ =>
    agree_bind (agree_refl _) fun _ => agree_bind (agree_readList (agree_readAttr hu)) fun _ =>
      agree_bind (agree_readList (agree_readVar hu)) fun _ => agree_refl _

end NetCdf
end Verif
