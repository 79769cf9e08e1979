import Verif.Model.Requests
import Mathlib.Data.List.Perm.Subperm
import Mathlib.Data.List.Count

/-!
# Lemmas about requests
-/

namespace Verif

open MapTileRenderer

/-- The file written, if the event is one. -/
def Event.written : Event → Option Write
  | .write w => some w
  | _ => none

/-- The files written, in their order. -/
def written (ev : List Event) : List Write := ev.filterMap Event.written

/-- The requests made, in their order. -/
def requests (ev : List Event) : List Event := ev.filter fun e => e.written.isNone

theorem written_append (a b : List Event) : written (a ++ b) = written a ++ written b := List.filterMap_append

theorem written_write (tr : List Write) : written (tr.map .write) = tr := by
  unfold written
  rw [List.filterMap_map]
  exact List.filterMap_some ..

/-! ## Tagged events -/

theorem filter_tagged_range {β : Type} (E : Nat → List β) (n i : Nat) (hi : i < n) :
    (((List.range n).flatMap fun k => (E k).map fun e => (k, e)).filter fun e => e.1 == i) = (E i).map fun e => (i, e) := by
  rw [List.filter_flatMap]
  have h : ∀ k, ((E k).map fun e => (k, e)).filter (fun e => e.1 == i) = if k = i then (E i).map fun e => (i, e) else [] := by
    intro k
    split
    · next h =>
      subst h
      rw [List.filter_eq_self]
      intro e he
      obtain ⟨a, -, rfl⟩ := List.mem_map.mp he
      simp
    · next h =>
      rw [List.filter_eq_nil_iff]
      intro e he
      obtain ⟨a, -, rfl⟩ := List.mem_map.mp he
      simpa using h
  simp only [h]
  induction n with
  | zero => omega
  | succ n ih =>
    rw [List.range_succ, List.flatMap_append]
    by_cases hin : i = n
    · subst hin
      have : (List.range i).flatMap (fun k => if k = i then (E i).map fun e => (i, e) else []) = [] := by
        rw [List.flatMap_eq_nil_iff]
        intro k hk
        rw [if_neg (by have := List.mem_range.mp hk; omega)]
      rw [this]
      simp
    · rw [ih (by omega)]
      simp [Ne.symm hin]

theorem map_snd_tag {β : Type} (l : List β) (i : Nat) : (l.map fun e => (i, e)).map Prod.snd = l := by
  rw [List.map_map]
  exact List.map_id' l

/-- The writes among tagged events. -/
def taggedWrites (tagged : List (Nat × Event)) : List (Nat × Write) :=
  tagged.filterMap fun e => e.2.written.map fun w => (e.1, w)

theorem taggedWrites_map (tagged : List (Nat × Event)) :
    (taggedWrites tagged).map Prod.snd = written (tagged.map Prod.snd) := by
  induction tagged with
  | nil => rfl
  | cons a l ih =>
    obtain ⟨i, e⟩ := a
    have h : taggedWrites ((i, e) :: l) = (match e.written with | some w => [(i, w)] | none => []) ++ taggedWrites l := by
      cases e <;> rfl
    have h' : written (((i, e) :: l).map Prod.snd) = (match e.written with | some w => [w] | none => []) ++
        written (l.map Prod.snd) := by
      cases e <;> rfl
    rw [h, h', List.map_append, ih]
    cases e.written <;> rfl

theorem taggedWrites_filter (tagged : List (Nat × Event)) (i : Nat) :
    (taggedWrites tagged).filter (fun e => e.1 == i) = taggedWrites (tagged.filter fun e => e.1 == i) := by
  induction tagged with
  | nil => rfl
  | cons a l ih =>
    obtain ⟨k, e⟩ := a
    by_cases h : k = i <;>
      cases e <;> simp_all [taggedWrites, Event.written]

theorem taggedWrites_tag {tagged : List (Nat × Event)} {e : Nat × Write} (h : e ∈ taggedWrites tagged) :
    ∃ e' ∈ tagged, e'.1 = e.1 := by
  obtain ⟨a, ha, hw⟩ := List.mem_filterMap.mp h
  refine ⟨a, ha, ?_⟩
  obtain ⟨w, -, rfl⟩ := Option.map_eq_some_iff.mp hw
  rfl

/-! ## How parallel loops end -/

theorem ParTry.inv {α β : Type} {work : α → List β → Outcome → Prop} {items : List α} {tr : List β} {o : Outcome}
    (h : ParTry work items tr o) : ∃ (tagged : List (Nat × β)) (ends : Nat → Option Outcome), tr = tagged.map Prod.snd ∧
      (∀ e ∈ tagged, e.1 < items.length) ∧
      (∀ i (h : i < items.length), ∀ oi, ends i = some oi → work items[i] ((tagged.filter fun e => e.1 == i).map Prod.snd) oi) ∧
      (∀ i, i < items.length → ends i = none → (tagged.filter fun e => e.1 == i) = [] ∧
        ∃ k, k < items.length ∧ (ends k = some .failed ∨ ends k = some .panicked)) ∧
      (o = .done ↔ ∀ i, i < items.length → ends i = some .done) := by
  cases h with
  | mk tagged ends o tags ran skipped panicked failed =>
    refine ⟨tagged, ends, rfl, tags, ran, fun i hi he => ⟨(skipped i hi he).1, ?_⟩, ?_⟩
    · cases o with
      | done => exact absurd rfl (skipped i hi he).2
      | failed =>
        obtain ⟨⟨k, hk, h⟩, -⟩ := failed.mp rfl
        exact ⟨k, hk, .inl h⟩
      | panicked =>
        obtain ⟨k, hk, h⟩ := panicked.mp rfl
        exact ⟨k, hk, .inr h⟩
    constructor
    · rintro rfl i hi
      cases he : ends i with
      | none => exact absurd rfl (skipped i hi he).2
      | some oi =>
        cases oi with
        | done => rfl
        | panicked => exact absurd (panicked.mpr ⟨i, hi, he⟩) (by simp)
        | failed =>
          refine absurd (failed.mpr ⟨⟨i, hi, he⟩, fun h => ?_⟩) (by simp)
          exact absurd (panicked.mpr h) (by simp)
    · intro h
      cases o with
      | done => rfl
      | panicked =>
        obtain ⟨i, hi, he⟩ := panicked.mp rfl
        rw [h i hi] at he
        cases he
      | failed =>
        obtain ⟨⟨i, hi, he⟩, -⟩ := failed.mp rfl
        rw [h i hi] at he
        cases he

/-- The outcome of a parallel loop, from those of its items. -/
theorem ParTry.of {α β : Type} {work : α → List β → Outcome → Prop} {items : List α} (tagged : List (Nat × β))
    (ends : Nat → Option Outcome) (tags : ∀ e ∈ tagged, e.1 < items.length)
    (ran : ∀ i (h : i < items.length), ∀ oi, ends i = some oi →
      work items[i] ((tagged.filter fun e => e.1 == i).map Prod.snd) oi)
    (skipped : ∀ i, i < items.length → ends i = none → (tagged.filter fun e => e.1 == i) = [] ∧
      ∃ k, k < items.length ∧ (ends k = some .failed ∨ ends k = some .panicked)) :
    ∃ o, ParTry work items (tagged.map Prod.snd) o ∧ (o = .done ↔ ∀ i, i < items.length → ends i = some .done) := by
  classical
  by_cases hp : ∃ i, i < items.length ∧ ends i = some .panicked
  · refine ⟨.panicked, .mk tagged ends _ tags ran (fun i hi he => ⟨(skipped i hi he).1, by simp⟩) (by simp [hp])
      (by simp [hp]), ?_⟩
    obtain ⟨i, hi, he⟩ := hp
    refine ⟨fun h => (by cases h), fun h => ?_⟩
    rw [h i hi] at he
    cases he
  · by_cases hf : ∃ i, i < items.length ∧ ends i = some .failed
    · refine ⟨.failed, .mk tagged ends _ tags ran (fun i hi he => ⟨(skipped i hi he).1, by simp⟩) (by simp [hp])
        (by simp [hp, hf]), ?_⟩
      obtain ⟨i, hi, he⟩ := hf
      refine ⟨fun h => (by cases h), fun h => ?_⟩
      rw [h i hi] at he
      cases he
    · have no : ∀ i, i < items.length → ends i ≠ none := by
        intro i hi he
        obtain ⟨-, k, hk, h | h⟩ := skipped i hi he
        · exact hf ⟨k, hk, h⟩
        · exact hp ⟨k, hk, h⟩
      refine ⟨.done, .mk tagged ends _ tags ran (fun i hi he => absurd he (no i hi)) (by simp [hp]) (by simp [hp, hf]), ?_⟩
      refine ⟨fun _ i hi => ?_, fun _ => rfl⟩
      cases he : ends i with
      | none => exact absurd he (no i hi)
      | some oi =>
        cases oi with
        | done => rfl
        | failed => exact absurd ⟨i, hi, he⟩ hf
        | panicked => exact absurd ⟨i, hi, he⟩ hp

/-! ## Requests do not change what is written -/

/-- A computation does with requests recorded what it does without: results are possible there too, of failures at least
one; and all results there are possible. -/
structure Sim {α : Type} (x : Asking α) (y : May α) : Prop where
  total : ∃ r, y r
  silent : ∀ ev r, x ev r → written ev = []
  good : ∀ ev a, x ev (.ok a) → y (.ok a)
  bad : ∀ ev r, x ev r → (∀ a, r ≠ .ok a) → y .err ∨ y .panic
  covers : ∀ r, y r → ∃ ev, x ev r

theorem Sim.of {α : Type} (r : Res α) : Sim (Asking.of r) (May.of r) where
  total := ⟨r, rfl⟩
  silent := by rintro ev x ⟨rfl, -⟩; rfl
  good := by rintro ev x ⟨-, rfl⟩; rfl
  bad := by
    rintro ev x ⟨-, rfl⟩ h
    cases x with
    | ok a => exact absurd rfl (h a)
    | err => exact .inl rfl
    | panic => exact .inr rfl
  covers := by rintro x rfl; exact ⟨[], rfl, rfl⟩

theorem Sim.one {α : Type} (e : Event) (he : e.written = none) (r : Res α) : Sim (Asking.one e r) (May.of r) where
  total := ⟨r, rfl⟩
  silent := by rintro ev x ⟨rfl, -⟩; unfold written; simp [he]
  good := by rintro ev x ⟨-, rfl⟩; rfl
  bad := by
    rintro ev x ⟨-, rfl⟩ h
    cases x with
    | ok a => exact absurd rfl (h a)
    | err => exact .inl rfl
    | panic => exact .inr rfl
  covers := by rintro x rfl; exact ⟨[e], rfl, rfl⟩

theorem Sim.lift {α : Type} (r : Res α) : Sim (liftM r : Asking α) (liftM r : May α) := Sim.of r

theorem Sim.pure {α : Type} (a : α) : Sim (pure a : Asking α) (pure a : May α) := Sim.of (.ok a)

theorem Sim.bind {α β : Type} {x : Asking α} {y : May α} {f : α → Asking β} {g : α → May β} (h : Sim x y)
    (hf : ∀ a, Sim (f a) (g a)) : Sim (x >>= f) (y >>= g) where
  total := by
    obtain ⟨r, hr⟩ := h.total
    cases r with
    | ok a =>
      obtain ⟨r', hr'⟩ := (hf a).total
      exact ⟨r', .inr (.inr ⟨a, hr, hr'⟩)⟩
    | err => exact ⟨.err, .inl ⟨hr, rfl⟩⟩
    | panic => exact ⟨.panic, .inr (.inl ⟨hr, rfl⟩)⟩
  silent := by
    rintro ev r (⟨h1, -⟩ | ⟨h1, -⟩ | ⟨a, e1, e2, h1, h2, rfl⟩)
    · exact h.silent _ _ h1
    · exact h.silent _ _ h1
    · rw [written_append, h.silent _ _ h1, (hf a).silent _ _ h2]; rfl
  good := by
    rintro ev b (⟨-, h1⟩ | ⟨-, h1⟩ | ⟨a, e1, e2, h1, h2, rfl⟩)
    · cases h1
    · cases h1
    · exact .inr (.inr ⟨a, h.good _ _ h1, (hf a).good _ _ h2⟩)
  bad := by
    have key : ∀ ev, (x ev .err ∨ x ev .panic) → (y >>= g) .err ∨ (y >>= g) .panic := by
      intro ev hx
      have : y .err ∨ y .panic := by
        rcases hx with hx | hx
        · exact h.bad _ _ hx (by simp)
        · exact h.bad _ _ hx (by simp)
      rcases this with hy | hy
      · exact .inl (.inl ⟨hy, rfl⟩)
      · exact .inr (.inr (.inl ⟨hy, rfl⟩))
    rintro ev r (⟨h1, -⟩ | ⟨h1, -⟩ | ⟨a, e1, e2, h1, h2, rfl⟩) hr
    · exact key ev (.inl h1)
    · exact key ev (.inr h1)
    · rcases (hf a).bad _ _ h2 hr with hy | hy
      · exact .inl (.inr (.inr ⟨a, h.good _ _ h1, hy⟩))
      · exact .inr (.inr (.inr ⟨a, h.good _ _ h1, hy⟩))
  covers := by
    rintro r (⟨h1, rfl⟩ | ⟨h1, rfl⟩ | ⟨a, h1, h2⟩)
    · obtain ⟨ev, hx⟩ := h.covers _ h1; exact ⟨ev, .inl ⟨hx, rfl⟩⟩
    · obtain ⟨ev, hx⟩ := h.covers _ h1; exact ⟨ev, .inr (.inl ⟨hx, rfl⟩)⟩
    · obtain ⟨e1, hx⟩ := h.covers _ h1
      obtain ⟨e2, hy⟩ := (hf a).covers _ h2
      exact ⟨e1 ++ e2, .inr (.inr ⟨a, e1, e2, hx, hy, rfl⟩)⟩

theorem Sim.request {net : Net} (ht : ∀ url, ∃ a, net url a) (url : Text) : Sim (Asking.request net url) (net.request url) where
  total := by obtain ⟨a, ha⟩ := ht url; exact ⟨_, a, ha, rfl⟩
  silent := by rintro ev r ⟨rfl, -⟩; rfl
  good := by rintro ev a ⟨-, h⟩; exact h
  bad := by
    rintro ev r ⟨-, a, ha, rfl⟩ h
    cases a with
    | none => exact .inl ⟨none, ha, rfl⟩
    | some b => exact absurd rfl (h b)
  covers := by rintro r h; exact ⟨_, rfl, h⟩

/-! ### Lists -/

theorem May.mapM_total {α β : Type} {g : α → May β} (items : List α) (h : ∀ a, ∃ r, g a r) : ∃ r, May.mapM g items r := by
  induction items with
  | nil => exact ⟨_, rfl⟩
  | cons a as ih =>
    obtain ⟨r, hr⟩ := h a
    cases r with
    | err => exact ⟨.err, .inl ⟨hr, rfl⟩⟩
    | panic => exact ⟨.panic, .inr (.inl ⟨hr, rfl⟩)⟩
    | ok b =>
      obtain ⟨r', hr'⟩ := ih
      cases r' with
      | err => exact ⟨.err, .inr (.inr ⟨b, hr, .inl ⟨hr', rfl⟩⟩)⟩
      | panic => exact ⟨.panic, .inr (.inr ⟨b, hr, .inr (.inl ⟨hr', rfl⟩)⟩)⟩
      | ok bs => exact ⟨.ok (b :: bs), .inr (.inr ⟨b, hr, .inr (.inr ⟨bs, hr', rfl⟩)⟩)⟩

theorem May.mapM_ok {α β : Type} {g : α → May β} (items : List α) (bs : List β) (hl : bs.length = items.length)
    (h : ∀ i (hi : i < items.length), g items[i] (.ok (bs[i]'(by omega)))) : May.mapM g items (.ok bs) := by
  induction items generalizing bs with
  | nil =>
    have : bs = [] := by simpa using hl
    subst this
    exact rfl
  | cons a as ih =>
    cases bs with
    | nil => simp at hl
    | cons b bs =>
      refine .inr (.inr ⟨b, h 0 (by simp), .inr (.inr ⟨bs, ih bs (by simpa using hl) (fun i hi => ?_), rfl⟩)⟩)
      have := h (i + 1) (by simpa using hi)
      simpa using this

theorem May.mapM_bad {α β : Type} {g : α → May β} (items : List α) (ht : ∀ a, ∃ r, g a r) (k : Nat) (hk : k < items.length)
    (hb : g items[k] .err ∨ g items[k] .panic) : May.mapM g items .err ∨ May.mapM g items .panic := by
  induction items generalizing k with
  | nil => simp at hk
  | cons a as ih =>
    cases k with
    | zero =>
      rcases hb with hb | hb
      · exact .inl (.inl ⟨hb, rfl⟩)
      · exact .inr (.inr (.inl ⟨hb, rfl⟩))
    | succ k =>
      obtain ⟨r, hr⟩ := ht a
      cases r with
      | err => exact .inl (.inl ⟨hr, rfl⟩)
      | panic => exact .inr (.inr (.inl ⟨hr, rfl⟩))
      | ok b =>
        rcases ih k (by simpa using hk) (by simpa using hb) with h | h
        · exact .inl (.inr (.inr ⟨b, hr, .inl ⟨h, rfl⟩⟩))
        · exact .inr (.inr (.inr ⟨b, hr, .inr (.inl ⟨h, rfl⟩)⟩))

/-- How the elements of a list lead to the result. -/
theorem May.mapM_inv {α β : Type} {g : α → May β} (items : List α) (r : Res (List β)) (h : May.mapM g items r) :
    (∃ bs, r = .ok bs ∧ bs.length = items.length ∧ ∀ i (hi : i < items.length), ∃ b, bs[i]? = some b ∧ g items[i] (.ok b)) ∨
    ∃ k, ∃ hk : k < items.length, (∀ i (_hi : i < items.length), i < k → ∃ b, g items[i] (.ok b)) ∧
      ((r = .err ∧ g items[k] .err) ∨ (r = .panic ∧ g items[k] .panic)) := by
  induction items generalizing r with
  | nil =>
    cases h
    exact .inl ⟨[], rfl, rfl, fun i hi => (by simp at hi)⟩
  | cons a as ih =>
    rcases h with ⟨h1, rfl⟩ | ⟨h1, rfl⟩ | ⟨b, h1, h⟩
    · exact .inr ⟨0, by simp, fun i _ hi => (by omega), .inl ⟨rfl, h1⟩⟩
    · exact .inr ⟨0, by simp, fun i _ hi => (by omega), .inr ⟨rfl, h1⟩⟩
    · have later : ∀ r', May.mapM g as r' → (∀ bs, r' ≠ .ok bs) → r = (match r' with | .ok _ => .err | .err => .err | .panic => .panic) →
          ∃ k, ∃ hk : k < (a :: as).length, (∀ i (hi : i < (a :: as).length), i < k → ∃ b, g (a :: as)[i] (.ok b)) ∧
            ((r = .err ∧ g (a :: as)[k] .err) ∨ (r = .panic ∧ g (a :: as)[k] .panic)) := by
        intro r' hr' hno hrr
        rcases ih r' hr' with ⟨bs, e, -⟩ | ⟨k, hk, h2, h3⟩
        · exact absurd e (hno bs)
        · refine ⟨k + 1, by simpa using hk, fun i hi hik => ?_, ?_⟩
          · cases i with
            | zero => exact ⟨b, h1⟩
            | succ i => exact h2 i (by simpa using hi) (by omega)
          · rcases h3 with ⟨e, h3⟩ | ⟨e, h3⟩
            · subst e; exact .inl ⟨hrr, h3⟩
            · subst e; exact .inr ⟨hrr, h3⟩
      rcases h with ⟨h2, rfl⟩ | ⟨h2, rfl⟩ | ⟨bs, h2, h3⟩
      · exact .inr (later .err h2 (by simp) rfl)
      · exact .inr (later .panic h2 (by simp) rfl)
      · cases h3
        refine .inl ⟨b :: bs, rfl, ?_⟩
        rcases ih _ h2 with ⟨bs', e, l, h4⟩ | ⟨k, hk, -, h4⟩
        · cases e
          refine ⟨by simpa using l, fun i hi => ?_⟩
          cases i with
          | zero => exact ⟨b, rfl, h1⟩
          | succ i =>
            obtain ⟨b', e', h5⟩ := h4 i (by simpa using hi)
            exact ⟨b', by simpa using e', h5⟩
        · rcases h4 with ⟨e, -⟩ | ⟨e, -⟩ <;> cases e

theorem ParMap.inv {α β : Type} {f : α → Asking β} {items : List α} {ev : List Event} {r : Res (List β)}
    (h : ParMap f items ev r) : ∃ (tagged : List (Nat × Event)) (ends : Nat → Option (Res β)), ev = tagged.map Prod.snd ∧
      (∀ e ∈ tagged, e.1 < items.length) ∧
      (∀ i (h : i < items.length), ∀ ri, ends i = some ri → f items[i] ((tagged.filter fun e => e.1 == i).map Prod.snd) ri) ∧
      (∀ i, i < items.length → ends i = none → (tagged.filter fun e => e.1 == i) = []) ∧
      (∀ bs, r = .ok bs → bs.length = items.length ∧ ∀ i (_hi : i < items.length), ∃ b, bs[i]? = some b ∧ ends i = some (.ok b)) ∧
      ((∀ bs, r ≠ .ok bs) → ∃ i, i < items.length ∧ (ends i = some .err ∨ ends i = some .panic)) := by
  cases h with
  | mk tagged ends r tags ran skipped collected panicked failed =>
    refine ⟨tagged, ends, rfl, tags, ran, fun i hi he => (skipped i hi he).1, fun bs hb => ?_, fun h => ?_⟩
    · obtain ⟨l, h⟩ := collected bs hb
      refine ⟨l, fun i hi => ?_⟩
      have : i < bs.length := by omega
      have e := h i hi
      rw [List.getElem?_eq_getElem this] at e ⊢
      exact ⟨_, rfl, e⟩
    · cases r with
      | ok bs => exact absurd rfl (h bs)
      | err => obtain ⟨⟨i, hi, he⟩, -⟩ := failed.mp rfl; exact ⟨i, hi, .inl he⟩
      | panic => obtain ⟨i, hi, he⟩ := panicked.mp rfl; exact ⟨i, hi, .inr he⟩

theorem mem_tagged_events {β : Type} {tagged : List (Nat × β)} {n : Nat} (tags : ∀ e ∈ tagged, e.1 < n) {x : β}
    (h : x ∈ tagged.map Prod.snd) : ∃ i, i < n ∧ x ∈ (tagged.filter fun e => e.1 == i).map Prod.snd := by
  obtain ⟨e, he, rfl⟩ := List.mem_map.mp h
  exact ⟨e.1, tags e he, List.mem_map.mpr ⟨e, List.mem_filter.mpr ⟨he, by simp⟩, rfl⟩⟩

theorem written_nil {ev : List Event} : written ev = [] ↔ ∀ e ∈ ev, e.written = none := by
  unfold written
  exact List.filterMap_eq_nil_iff

theorem Sim.par {α β : Type} {f : α → Asking β} {g : α → May β} (h : ∀ a, Sim (f a) (g a)) (items : List α) :
    Sim (ParMap f items) (May.mapM g items) where
  total := May.mapM_total items fun a => (h a).total
  silent := by
    intro ev r hx
    obtain ⟨tagged, ends, rfl, tags, ran, skipped, -, -⟩ := hx.inv
    rw [written_nil]
    intro e he
    obtain ⟨i, hi, hm⟩ := mem_tagged_events tags he
    cases hends : ends i with
    | none => rw [skipped i hi hends] at hm; cases hm
    | some ri => exact written_nil.mp ((h _).silent _ _ (ran i hi ri hends)) e hm
  good := by
    intro ev bs hx
    obtain ⟨tagged, ends, rfl, tags, ran, skipped, hok, -⟩ := hx.inv
    obtain ⟨l, hb⟩ := hok bs rfl
    refine May.mapM_ok items bs l fun i hi => ?_
    obtain ⟨b, e1, e2⟩ := hb i hi
    rw [List.getElem?_eq_getElem (by omega)] at e1
    cases e1
    exact (h _).good _ _ (ran i hi _ e2)
  bad := by
    intro ev r hx hr
    obtain ⟨tagged, ends, rfl, tags, ran, skipped, -, hbad⟩ := hx.inv
    obtain ⟨i, hi, he⟩ := hbad hr
    refine May.mapM_bad items (fun a => (h a).total) i hi ?_
    rcases he with he | he
    · exact (h _).bad _ _ (ran i hi _ he) (by simp)
    · exact (h _).bad _ _ (ran i hi _ he) (by simp)
  covers := by
    classical
    intro r hy
    rcases May.mapM_inv items r hy with ⟨bs, rfl, l, hb⟩ | ⟨k, hk, hpre, hend⟩
    · have : ∀ i : Fin items.length, ∃ ev, f items[i] ev (.ok (bs[i]'(by omega))) := by
        intro i
        obtain ⟨b, e1, e2⟩ := hb i i.2
        rw [List.getElem?_eq_getElem (by omega)] at e1
        cases e1
        exact (h _).covers _ e2
      choose E hE using this
      let E' : Nat → List Event := fun i => if hi : i < items.length then E ⟨i, hi⟩ else []
      refine ⟨_, .mk ((List.range items.length).flatMap fun k => (E' k).map fun e => (k, e))
        (fun i => bs[i]?.map .ok) (.ok bs) ?_ ?_ ?_ ?_ ?_ ?_⟩
      · intro e he
        obtain ⟨k, hk, hm⟩ := List.mem_flatMap.mp he
        obtain ⟨a, -, rfl⟩ := List.mem_map.mp hm
        exact List.mem_range.mp hk
      · intro i hi ri hri
        rw [filter_tagged_range _ _ _ hi, map_snd_tag]
        rw [List.getElem?_eq_getElem (by omega)] at hri
        cases hri
        simp only [E', hi, dif_pos]
        exact hE ⟨i, hi⟩
      · intro i hi he
        rw [List.getElem?_eq_getElem (by omega)] at he
        cases he
      · rintro bs' ⟨rfl⟩
        exact ⟨l, fun i _ => rfl⟩
      · simp only [reduceCtorEq, false_iff, not_exists, not_and]
        intro i hi he
        rw [List.getElem?_eq_getElem (by omega)] at he
        cases he
      · simp only [reduceCtorEq, false_iff, not_and]
        rintro ⟨i, hi, he⟩
        rw [List.getElem?_eq_getElem (by omega)] at he
        cases he
    · have : ∀ i : Fin items.length, ∃ (ev : List Event) (b : Option (Res β)), (i.1 < k → ∃ a, b = some (.ok a) ∧ f items[i] ev (.ok a)) ∧
          (i.1 = k → ((r = .err ∧ b = some .err ∧ f items[i] ev .err) ∨ (r = .panic ∧ b = some .panic ∧ f items[i] ev .panic))) ∧
          (k < i.1 → b = none ∧ ev = []) := by
        intro i
        rcases Nat.lt_trichotomy i.1 k with hik | hik | hik
        · obtain ⟨a, ha⟩ := hpre i i.2 hik
          obtain ⟨ev, he⟩ := (h _).covers _ ha
          exact ⟨ev, _, fun _ => ⟨a, rfl, he⟩, fun h => (by omega), fun h => (by omega)⟩
        · rcases hend with ⟨e, he⟩ | ⟨e, he⟩
          · obtain ⟨ev, hev⟩ := (h _).covers _ he
            refine ⟨ev, some .err, fun h => (by omega), fun _ => .inl ⟨e, rfl, ?_⟩, fun h => (by omega)⟩
            simp only [Fin.getElem_fin, hik]
            exact hev
          · obtain ⟨ev, hev⟩ := (h _).covers _ he
            refine ⟨ev, some .panic, fun h => (by omega), fun _ => .inr ⟨e, rfl, ?_⟩, fun h => (by omega)⟩
            simp only [Fin.getElem_fin, hik]
            exact hev
        · exact ⟨[], none, fun h => (by omega), fun h => (by omega), fun _ => ⟨rfl, rfl⟩⟩
      choose E B h1 h2 h3 using this
      let E' : Nat → List Event := fun i => if hi : i < items.length then E ⟨i, hi⟩ else []
      let B' : Nat → Option (Res β) := fun i => if hi : i < items.length then B ⟨i, hi⟩ else none
      have hB : ∀ i (hi : i < items.length), B' i = B ⟨i, hi⟩ := fun i hi => dif_pos hi
      have hE : ∀ i (hi : i < items.length), E' i = E ⟨i, hi⟩ := fun i hi => dif_pos hi
      have kind : ∀ i (hi : i < items.length), B' i = some .err ∨ B' i = some .panic → i = k := by
        intro i hi hb
        rw [hB i hi] at hb
        rcases Nat.lt_trichotomy i k with hik | hik | hik
        · obtain ⟨a, e, -⟩ := h1 ⟨i, hi⟩ hik
          rw [e] at hb
          rcases hb with hb | hb <;> cases hb
        · exact hik
        · rw [(h3 ⟨i, hi⟩ hik).1] at hb
          rcases hb with hb | hb <;> cases hb
      refine ⟨_, .mk ((List.range items.length).flatMap fun k => (E' k).map fun e => (k, e)) B' r ?_ ?_ ?_ ?_ ?_ ?_⟩
      · intro e he
        obtain ⟨k, hk, hm⟩ := List.mem_flatMap.mp he
        obtain ⟨a, -, rfl⟩ := List.mem_map.mp hm
        exact List.mem_range.mp hk
      · intro i hi ri hri
        rw [filter_tagged_range _ _ _ hi, map_snd_tag, hE i hi]
        rw [hB i hi] at hri
        rcases Nat.lt_trichotomy i k with hik | hik | hik
        · obtain ⟨a, e, h4⟩ := h1 ⟨i, hi⟩ hik
          rw [e] at hri
          cases hri
          exact h4
        · rcases h2 ⟨i, hi⟩ hik with ⟨-, e, h4⟩ | ⟨-, e, h4⟩ <;>
            · rw [e] at hri
              cases hri
              exact h4
        · rw [(h3 ⟨i, hi⟩ hik).1] at hri
          cases hri
      · intro i hi hn
        rw [hB i hi] at hn
        have hik : k < i := by
          rcases Nat.lt_trichotomy i k with hik | hik | hik
          · obtain ⟨a, e, -⟩ := h1 ⟨i, hi⟩ hik
            rw [e] at hn
            cases hn
          · rcases h2 ⟨i, hi⟩ hik with ⟨-, e, -⟩ | ⟨-, e, -⟩ <;>
              · rw [e] at hn
                cases hn
          · exact hik
        refine ⟨?_, fun bs hb => ?_⟩
        · rw [filter_tagged_range _ _ _ hi, hE i hi, (h3 ⟨i, hi⟩ hik).2]
          rfl
        · rcases hend with ⟨e, -⟩ | ⟨e, -⟩ <;>
            · rw [e] at hb
              cases hb
      · intro bs hb
        rcases hend with ⟨e, -⟩ | ⟨e, -⟩ <;>
          · rw [e] at hb
            cases hb
      · constructor
        · intro hr
          rcases h2 ⟨k, hk⟩ rfl with ⟨e, -⟩ | ⟨-, e, -⟩
          · rw [e] at hr; cases hr
          · exact ⟨k, hk, by rw [hB k hk, e]⟩
        · rintro ⟨i, hi, he⟩
          obtain rfl := kind i hi (.inr he)
          rw [hB i hi] at he
          rcases h2 ⟨i, hi⟩ rfl with ⟨-, e, -⟩ | ⟨e, -⟩
          · rw [e] at he; cases he
          · exact e
      · constructor
        · intro hr
          rcases h2 ⟨k, hk⟩ rfl with ⟨-, e, -⟩ | ⟨e, -⟩
          · refine ⟨⟨k, hk, by rw [hB k hk, e]⟩, ?_⟩
            rintro ⟨i, hi, he⟩
            obtain rfl := kind i hi (.inr he)
            rw [hB i hi, e] at he
            cases he
          · rw [e] at hr; cases hr
        · rintro ⟨⟨i, hi, he⟩, -⟩
          obtain rfl := kind i hi (.inl he)
          rw [hB i hi] at he
          rcases h2 ⟨i, hi⟩ rfl with ⟨e, -⟩ | ⟨-, e, -⟩
          · exact e
          · rw [e] at he; cases he

/-! ### The program -/

/-- A part of the program writes with requests recorded what it writes without. -/
structure SimD (d : Deed) (e : Effect) : Prop where
  follows : ∀ ev o, d ev o → ∃ o', e (written ev) o' ∧ (o = .done ↔ o' = .done)
  covers : ∀ tr o, e tr o → ∃ ev, d ev o ∧ written ev = tr

theorem SimD.done : SimD (fun ev o => ev = [] ∧ o = .done) (fun tr o => tr = [] ∧ o = .done) where
  follows := by rintro ev o ⟨rfl, rfl⟩; exact ⟨.done, ⟨rfl, rfl⟩, Iff.rfl⟩
  covers := by rintro tr o ⟨rfl, rfl⟩; exact ⟨[], ⟨rfl, rfl⟩, rfl⟩

theorem SimD.when {d : Deed} {e : Effect} (h : SimD d e) (c : Bool) : SimD (Deed.when c d) (Effect.when c e) := by
  cases c with
  | true => exact h
  | false => exact SimD.done

theorem SimD.of (e : Effect) : SimD (Deed.of e) e where
  follows := by
    rintro ev o ⟨tr, h, rfl⟩
    rw [written_write]
    exact ⟨o, h, Iff.rfl⟩
  covers := by rintro tr o h; exact ⟨_, ⟨tr, h, rfl⟩, written_write tr⟩

theorem SimD.needs {α : Type} {x : Asking α} {y : May α} {f : α → Deed} {g : α → Effect} (h : Sim x y)
    (hf : ∀ a, SimD (f a) (g a)) : SimD (Deed.need x f) (Effect.needs y g) where
  follows := by
    have key : ∀ ev r, x ev r → (∀ a, r ≠ .ok a) → ∃ o', Effect.needs y g (written ev) o' ∧ o' ≠ .done := by
      intro ev r hx hr
      rw [h.silent _ _ hx]
      rcases h.bad _ _ hx hr with hy | hy
      · exact ⟨_, .inl ⟨hy, rfl, rfl⟩, by simp⟩
      · exact ⟨_, .inr (.inl ⟨hy, rfl, rfl⟩), by simp⟩
    rintro ev o (⟨h1, rfl⟩ | ⟨h1, rfl⟩ | ⟨a, e1, e2, h1, h2, rfl⟩)
    · obtain ⟨o', h2, h3⟩ := key _ _ h1 (by simp)
      exact ⟨o', h2, by simp [h3]⟩
    · obtain ⟨o', h2, h3⟩ := key _ _ h1 (by simp)
      exact ⟨o', h2, by simp [h3]⟩
    · rw [written_append, h.silent _ _ h1, List.nil_append]
      obtain ⟨o', h3, h4⟩ := (hf a).follows _ _ h2
      exact ⟨o', .inr (.inr ⟨a, h.good _ _ h1, h3⟩), h4⟩
  covers := by
    rintro tr o (⟨h1, rfl, rfl⟩ | ⟨h1, rfl, rfl⟩ | ⟨a, h1, h2⟩)
    · obtain ⟨ev, hx⟩ := h.covers _ h1
      exact ⟨ev, .inl ⟨hx, rfl⟩, h.silent _ _ hx⟩
    · obtain ⟨ev, hx⟩ := h.covers _ h1
      exact ⟨ev, .inr (.inl ⟨hx, rfl⟩), h.silent _ _ hx⟩
    · obtain ⟨e1, hx⟩ := h.covers _ h1
      obtain ⟨e2, hy, rfl⟩ := (hf a).covers _ _ h2
      exact ⟨e1 ++ e2, .inr (.inr ⟨a, e1, e2, hx, hy, rfl⟩), by rw [written_append, h.silent _ _ hx]; rfl⟩

theorem Effect.need_eq_needs {α : Type} (r : Res α) (f : α → Effect) (tr : List Write) (o : Outcome) :
    Effect.need r f tr o ↔ Effect.needs (May.of r) f tr o := by
  cases r <;> simp [Effect.need, Effect.needs, May.of]

theorem SimD.need {α : Type} {x : Asking α} {r : Res α} {f : α → Deed} {g : α → Effect} (h : Sim x (May.of r))
    (hf : ∀ a, SimD (f a) (g a)) : SimD (Deed.need x f) (Effect.need r g) where
  follows := by
    intro ev o hd
    obtain ⟨o', h1, h2⟩ := (SimD.needs h hf).follows ev o hd
    exact ⟨o', (Effect.need_eq_needs ..).mpr h1, h2⟩
  covers := fun tr o he => (SimD.needs h hf).covers tr o ((Effect.need_eq_needs ..).mp he)

theorem SimD.nil : SimD (Seq []) (Seq []) where
  follows := by
    intro ev o h
    cases h
    exact ⟨.done, .nil, Iff.rfl⟩
  covers := by
    intro tr o h
    cases h
    exact ⟨[], .nil, rfl⟩

theorem SimD.cons {d : Deed} {e : Effect} {ds : List Deed} {es : List Effect} (h : SimD d e) (hs : SimD (Seq ds) (Seq es)) :
    SimD (Seq (d :: ds)) (Seq (e :: es)) where
  follows := by
    intro ev o hd
    cases hd with
    | cons h1 h2 =>
      obtain ⟨o1, a1, b1⟩ := h.follows _ _ h1
      obtain ⟨o2, a2, b2⟩ := hs.follows _ _ h2
      obtain rfl := b1.mp rfl
      rw [written_append]
      exact ⟨o2, .cons a1 a2, b2⟩
    | stop h1 ho =>
      obtain ⟨o1, a1, b1⟩ := h.follows _ _ h1
      exact ⟨o1, .stop a1 fun e => ho (b1.mpr e), b1⟩
  covers := by
    intro tr o he
    cases he with
    | cons h1 h2 =>
      obtain ⟨e1, a1, rfl⟩ := h.covers _ _ h1
      obtain ⟨e2, a2, rfl⟩ := hs.covers _ _ h2
      exact ⟨e1 ++ e2, .cons a1 a2, written_append ..⟩
    | stop h1 ho =>
      obtain ⟨e1, a1, rfl⟩ := h.covers _ _ h1
      exact ⟨e1, .stop a1 ho, rfl⟩

/-- Parts of the program whose requests come first. -/
structure SimF (d : Deed) (e : Effect) : Prop extends SimD d e where
  first : ∀ tr o, e tr o → ∃ asked, d (asked ++ tr.map .write) o ∧ written asked = []

theorem tagged_merge (asked : Nat → List Event) (tagged : List (Nat × Write)) (n i : Nat) (hi : i < n) :
    ((((List.range n).flatMap fun k => (asked k).map fun e => (k, e)) ++ tagged.map fun e => (e.1, Event.write e.2)).filter
      fun e => e.1 == i).map Prod.snd = asked i ++ ((tagged.filter fun e => e.1 == i).map Prod.snd).map .write := by
  rw [List.filter_append, filter_tagged_range _ _ _ hi, List.map_append, map_snd_tag, List.filter_map, List.map_map, List.map_map]
  rfl

theorem SimD.par {α : Type} {d : α → Deed} {e : α → Effect} {items : List α} (h : ∀ a, SimF (d a) (e a)) :
    SimD (ParTry d items) (ParTry e items) where
  follows := by
    classical
    intro ev o hd
    obtain ⟨tagged, ends, rfl, tags, ran, skipped, hdone⟩ := hd.inv
    have : ∀ i : Fin items.length, ∃ oi : Option Outcome, (ends i = none ↔ oi = none) ∧
        (ends i = some .done ↔ oi = some .done) ∧
        ∀ o', oi = some o' → e items[i] (written ((tagged.filter fun e => e.1 == i.1).map Prod.snd)) o' := by
      intro i
      cases he : ends i with
      | none => exact ⟨none, by simp, by simp, by simp⟩
      | some oi =>
        obtain ⟨o', h1, h2⟩ := (h _).follows _ _ (ran i i.2 oi he)
        refine ⟨some o', by simp, by simpa using h2, ?_⟩
        rintro _ ⟨rfl⟩
        exact h1
    choose B h1 h2 h3 using this
    let B' : Nat → Option Outcome := fun i => if hi : i < items.length then B ⟨i, hi⟩ else none
    have hB : ∀ i (hi : i < items.length), B' i = B ⟨i, hi⟩ := fun i hi => dif_pos hi
    have key : ∃ o', ParTry e items ((taggedWrites tagged).map Prod.snd) o' ∧
        (o' = .done ↔ ∀ i, i < items.length → B' i = some .done) := by
      refine ParTry.of _ B' ?_ ?_ ?_
      · intro e he
        obtain ⟨e', he', h6⟩ := taggedWrites_tag he
        rw [← h6]
        exact tags e' he'
      · intro i hi oi hoi
        rw [hB i hi] at hoi
        rw [taggedWrites_filter, taggedWrites_map]
        exact h3 ⟨i, hi⟩ oi hoi
      · intro i hi hn
        rw [hB i hi] at hn
        obtain ⟨h6, h7⟩ := skipped i hi ((h1 ⟨i, hi⟩).mpr hn)
        refine ⟨by rw [taggedWrites_filter, h6]; rfl, ?_⟩
        obtain ⟨k, hk, h8⟩ := h7
        refine ⟨k, hk, ?_⟩
        rw [hB k hk]
        cases hb : B ⟨k, hk⟩ with
        | none =>
          rw [(h1 ⟨k, hk⟩).mpr hb] at h8
          rcases h8 with h8 | h8 <;> cases h8
        | some ob =>
          cases ob with
          | done =>
            rw [(h2 ⟨k, hk⟩).mpr hb] at h8
            rcases h8 with h8 | h8 <;> cases h8
          | failed => exact .inl rfl
          | panicked => exact .inr rfl
    obtain ⟨o', h4, h5⟩ := key
    rw [taggedWrites_map] at h4
    refine ⟨o', h4, ?_⟩
    rw [hdone, h5]
    refine forall_congr' fun i => forall_congr' fun hi => ?_
    rw [hB i hi]
    exact h2 ⟨i, hi⟩
  covers := by
    classical
    intro tr o he
    cases he with
    | mk tagged ends o tags ran skipped panicked failed =>
      have : ∀ i : Fin items.length, ∃ asked, written asked = [] ∧ (ends i = none → asked = []) ∧
          ∀ oi, ends i = some oi → d items[i] (asked ++ ((tagged.filter fun e => e.1 == i.1).map Prod.snd).map .write) oi := by
        intro i
        cases he : ends i with
        | none => exact ⟨[], rfl, fun _ => rfl, by simp⟩
        | some oi =>
          obtain ⟨asked, h1, h2⟩ := (h _).first _ _ (ran i i.2 oi he)
          refine ⟨asked, h2, by simp, ?_⟩
          rintro _ ⟨rfl⟩
          exact h1
      choose A h1 h2 h3 using this
      let A' : Nat → List Event := fun i => if hi : i < items.length then A ⟨i, hi⟩ else []
      have hA : ∀ i (hi : i < items.length), A' i = A ⟨i, hi⟩ := fun i hi => dif_pos hi
      refine ⟨_, .mk (((List.range items.length).flatMap fun k => (A' k).map fun e => (k, e)) ++
        tagged.map fun e => (e.1, Event.write e.2)) ends o ?_ ?_ ?_ panicked failed, ?_⟩
      · intro e he
        rcases List.mem_append.mp he with he | he
        · obtain ⟨k, hk, hm⟩ := List.mem_flatMap.mp he
          obtain ⟨a, -, rfl⟩ := List.mem_map.mp hm
          exact List.mem_range.mp hk
        · obtain ⟨a, ha, rfl⟩ := List.mem_map.mp he
          exact tags a ha
      · intro i hi oi hoi
        rw [tagged_merge _ _ _ _ hi, hA i hi]
        exact h3 ⟨i, hi⟩ oi hoi
      · intro i hi hn
        obtain ⟨h4, h5⟩ := skipped i hi hn
        refine ⟨?_, h5⟩
        have := tagged_merge A' tagged _ _ hi
        rw [h4, hA i hi, h2 ⟨i, hi⟩ hn] at this
        simpa using this
      · rw [List.map_append, written_append, List.map_map]
        have h4 : written (((List.range items.length).flatMap fun k => (A' k).map fun e => (k, e)).map Prod.snd) = [] := by
          rw [written_nil]
          intro x hx
          obtain ⟨y, hy, rfl⟩ := List.mem_map.mp hx
          obtain ⟨k, hk, hm⟩ := List.mem_flatMap.mp hy
          obtain ⟨a, ha, rfl⟩ := List.mem_map.mp hm
          rw [hA k (List.mem_range.mp hk)] at ha
          exact written_nil.mp (h1 _) a ha
        rw [h4, List.nil_append]
        have := written_write (tagged.map Prod.snd)
        rw [List.map_map] at this
        exact this

end Verif
