import Verif.Model.CommandLine
import Verif.Props.HorizonText

/-!
# C160: the command line is understood as it is written
-/

namespace Verif.Props

open Verif CommandLine MapTileRenderer

/-- An option as it is given: with a value in the same argument, or with values in the arguments behind it. -/
inductive Given where
  | joined (o : Opt) (v : Text)
  | spaced (o : Opt) (vs : List Text)

/-- The long and the short name of an option, as they are written. -/
def names (o : Opt) : List Text := ['-' :: '-' :: o.long, ['-', o.short]]

/-- A text that is not taken for an option: it does not begin with a dash, or is only a dash. -/
def Plain (v : Text) : Prop := v.head? ≠ some '-' ∨ v = ['-']

/-- How an option may be written: `--steps=3`, `-s=3` or `-s3`, `--steps 1 2 3` or `-s 1 2 3`. -/
def Given.Written : Given → List Text → Prop
  | .joined o v, ws =>
    (∃ name ∈ names o, ws = [name ++ '=' :: v]) ∨ (v ≠ [] ∧ v.head? ≠ some '=' ∧ ws = ['-' :: o.short :: v])
  | .spaced o vs, ws =>
    (∃ name ∈ names o, ws = name :: vs) ∧ (∀ v ∈ vs, Plain v) ∧ vs ≠ [] ∧ (o = .model → vs.length = 1)

/-- The values that are given for an option, in their order. -/
def valuesOf (o : Opt) : List Given → List Text
  | [] => []
  | .joined o' v :: gs => (if o' = o then [v] else []) ++ valuesOf o gs
  | .spaced o' vs :: gs => (if o' = o then vs else []) ++ valuesOf o gs

/-- A text that is a number of 64 bits: decimal digits, possibly after a plus sign. -/
def Number (t : Text) (n : Nat) : Prop :=
  ∃ sign digits, t = sign ++ digits ∧ (sign = [] ∨ sign = ['+']) ∧ digits ≠ [] ∧ digits.all Char.isDigit = true ∧
    valueOf digits = n ∧ n < 2 ^ 64

/-- What a command line says: options as above, possibly with a `--` at the end; the model exactly once. -/
def Says (ts : List Text) (a : Args) : Prop :=
  ∃ gs wss, List.Forall₂ Given.Written gs wss ∧ (ts = wss.flatten ∨ ts = wss.flatten ++ [['-', '-']]) ∧
    valuesOf .model gs = [a.model] ∧ valuesOf .variables gs = a.vars ∧ List.Forall₂ Number (valuesOf .steps gs) a.steps

/-! ### Single arguments -/

theorem parseUSize_iff (t : Text) (n : Nat) : parseUSize t = some n ↔ Number t n := by
  constructor
  · intro h
    unfold parseUSize at h
    simp only at h
    split at h
    · rename_i hd
      split at h
      · rename_i hv
        have hn : valueOf (stripPlus t) = n := Option.some.inj h
        have : t = stripPlus t ∨ t = '+' :: stripPlus t := by
          unfold stripPlus
          split
          · exact .inr rfl
          · exact .inl rfl
        have hv : n < 2 ^ 64 := by rw [← hn]; exact hv
        rcases this with e | e
        · exact ⟨[], stripPlus t, e, .inl rfl, hd.1, hd.2, hn, hv⟩
        · exact ⟨['+'], stripPlus t, e, .inr rfl, hd.1, hd.2, hn, hv⟩
      · cases h
    · cases h
  · rintro ⟨sign, digits, rfl, hs, h0, hd, hv, hb⟩
    have e : parseUSize (sign ++ digits) = parseUSize digits := by
      rcases hs with rfl | rfl
      · rfl
      · unfold parseUSize
        have : stripPlus (['+'] ++ digits) = digits := by
          cases digits with
          | nil => exact absurd rfl h0
          | cons d ds => rfl
        rw [this, stripPlus_digits hd]
    rw [e]
    unfold parseUSize
    rw [stripPlus_digits hd]
    simp only
    rw [if_pos ⟨h0, hd⟩]
    have e2 : digits.foldl (fun v c => 10 * v + digitValue c) 0 = valueOf digits := rfl
    rw [e2, hv, if_pos hb]

theorem mapM_numbers (vs : List Text) (ns : List Nat) : vs.mapM parseUSize = some ns ↔ List.Forall₂ Number vs ns := by
  induction vs generalizing ns with
  | nil =>
    rw [List.mapM_nil]
    constructor
    · intro h; cases h; exact .nil
    · intro h; cases h; rfl
  | cons v vs ih =>
    rw [List.mapM_cons]
    constructor
    · intro h
      cases h1 : parseUSize v with
      | none => rw [h1] at h; cases h
      | some n =>
        rw [h1] at h
        cases h2 : vs.mapM parseUSize with
        | none => rw [h2] at h; cases h
        | some ms =>
          rw [h2] at h
          cases h
          exact .cons ((parseUSize_iff _ _).mp h1) ((ih ms).mp h2)
    · intro h
      cases h with
      | cons h1 h2 =>
        rw [(parseUSize_iff _ _).mpr h1, (ih _).mpr h2]
        rfl

theorem splitEq_name {n : Text} (h : '=' ∉ n) (v : Text) : splitEq (n ++ '=' :: v) = (n, some v) := by
  induction n with
  | nil => rfl
  | cons c n ih =>
    simp only [List.mem_cons, not_or] at h
    rw [List.cons_append]
    unfold splitEq
    split
    · rename_i e; exact absurd e (by simp)
    · rename_i e; exact absurd (List.cons.inj e).1 (Ne.symm h.1)
    · rename_i e
      obtain ⟨rfl, rfl⟩ := List.cons.inj e
      rw [ih h.2]

theorem splitEq_alone {n : Text} (h : '=' ∉ n) : splitEq n = (n, none) := by
  induction n with
  | nil => rfl
  | cons c n ih =>
    simp only [List.mem_cons, not_or] at h
    unfold splitEq
    split
    · rename_i e; exact absurd e (by simp)
    · rename_i e; exact absurd (List.cons.inj e).1 (Ne.symm h.1)
    · rename_i e
      obtain ⟨rfl, rfl⟩ := List.cons.inj e
      rw [ih h.2]

theorem splitEq_join (t : Text) : (∃ n v, splitEq t = (n, some v) ∧ t = n ++ '=' :: v) ∨ splitEq t = (t, none) := by
  induction t with
  | nil => exact .inr rfl
  | cons c t ih =>
    by_cases hc : c = '='
    · subst hc
      exact .inl ⟨[], t, rfl, rfl⟩
    · have e : splitEq (c :: t) = (c :: (splitEq t).1, (splitEq t).2) := by
        conv_lhs => unfold splitEq
        split
        · rename_i e; exact absurd e (by simp)
        · rename_i e; exact absurd (List.cons.inj e).1 hc
        · rename_i e
          obtain ⟨rfl, rfl⟩ := List.cons.inj e
          rfl
      rcases ih with ⟨n, v, h1, h2⟩ | h
      · exact .inl ⟨c :: n, v, by rw [e, h1], by rw [List.cons_append, ← h2]⟩
      · exact .inr (by rw [e, h])

theorem longOpt_iff (t : Text) (o : Opt) : longOpt t = some o ↔ t = o.long := by
  unfold longOpt
  constructor
  · intro h
    split at h
    · rename_i e; cases h; exact e
    · split at h
      · rename_i e; cases h; exact e
      · split at h
        · rename_i e; cases h; exact e
        · cases h
  · rintro rfl
    cases o <;> decide

theorem shortOpt_iff (c : Char) (o : Opt) : shortOpt c = some o ↔ c = o.short := by
  unfold shortOpt
  constructor
  · intro h
    split at h
    · rename_i e; cases h; exact e
    · split at h
      · rename_i e; cases h; exact e
      · split at h
        · rename_i e; cases h; exact e
        · cases h
  · rintro rfl
    cases o <;> decide

theorem kind_long (t : Text) (h : t ≠ []) : kind ('-' :: '-' :: t) = match longOpt (splitEq t).1 with
    | some o => .option o (splitEq t).2
    | none =>
      if (splitEq t).1 = "help".toList ∨ (splitEq t).1 = "version".toList then
        if (splitEq t).2 = none then .info else .unknown
      else .unknown := by
  cases t with
  | nil => exact absurd rfl h
  | cons c t => rfl

theorem kind_short {c : Char} (h : c ≠ '-') (t : Text) : kind ('-' :: c :: t) = match shortOpt c with
    | some o => .option o (shortValue t)
    | none => if c = 'h' ∨ c = 'V' then .info else .unknown := by
  conv_lhs => unfold kind
  split
  · rename_i e; injection e with _ e; injection e with e _; exact absurd e h
  · rename_i e; injection e with _ e; injection e with e _; exact absurd e h
  · rename_i e; injection e with _ e; injection e with e1 e2; subst e1; subst e2; rfl
  · rename_i h1 _ h3; exact absurd rfl (h3 c t)

/-- The kind of an argument, from its text. -/
theorem kind_cases (t : Text) : (Plain t ∧ kind t = .value) ∨ (t = ['-', '-'] ∧ kind t = .escape) ∨
    (∃ u, t = '-' :: '-' :: u ∧ u ≠ []) ∨ (∃ c u, t = '-' :: c :: u ∧ c ≠ '-') := by
  match t with
  | [] => exact .inl ⟨.inl (by simp), rfl⟩
  | ['-'] => exact .inl ⟨.inr rfl, rfl⟩
  | '-' :: c :: u =>
    by_cases hc : c = '-'
    · subst hc
      cases u with
      | nil => exact .inr (.inl ⟨rfl, rfl⟩)
      | cons d u => exact .inr (.inr (.inl ⟨d :: u, rfl, by simp⟩))
    · exact .inr (.inr (.inr ⟨c, u, rfl, hc⟩))
  | c :: u =>
    by_cases hc : c = '-'
    · subst hc
      cases u with
      | nil => exact .inl ⟨.inr rfl, rfl⟩
      | cons d u =>
        by_cases hd : d = '-'
        · subst hd
          cases u with
          | nil => exact .inr (.inl ⟨rfl, rfl⟩)
          | cons e u => exact .inr (.inr (.inl ⟨e :: u, rfl, by simp⟩))
        · exact .inr (.inr (.inr ⟨d, u, rfl, hd⟩))
    · refine .inl ⟨.inl (by simpa using hc), ?_⟩
      unfold kind
      split
      · rename_i e; exact absurd (List.cons.inj e).1 hc
      · rename_i e; exact absurd (List.cons.inj e).1 hc
      · rename_i e; exact absurd (List.cons.inj e).1 hc
      · rfl

theorem kind_plain {t : Text} (h : Plain t) : kind t = .value := by
  rcases kind_cases t with h1 | h1 | ⟨u, rfl, h1⟩ | ⟨c, u, rfl, h1⟩
  · exact h1.2
  · rw [h1.1] at h; exact absurd h (by unfold Plain; decide)
  · rcases h with h | h
    · exact absurd rfl h
    · injection h with _ h; cases h
  · rcases h with h | h
    · exact absurd rfl h
    · injection h with _ h; cases h

theorem long_ne_nil (o : Opt) : o.long ≠ [] := by cases o <;> decide
theorem long_no_eq (o : Opt) : '=' ∉ o.long := by cases o <;> decide
theorem short_ne_dash (o : Opt) : o.short ≠ '-' := by cases o <;> decide

theorem kind_name {o : Opt} {name : Text} (h : name ∈ names o) : kind name = .option o none := by
  simp only [names, List.mem_cons, List.not_mem_nil, or_false] at h
  rcases h with rfl | rfl
  · rw [kind_long _ (long_ne_nil o), splitEq_alone (long_no_eq o), (longOpt_iff _ o).mpr rfl]
  · rw [kind_short (short_ne_dash o), (shortOpt_iff _ o).mpr rfl]
    rfl

theorem kind_joined {o : Opt} {v : Text} {ws : List Text} (h : (Given.joined o v).Written ws) :
    ∃ w, ws = [w] ∧ kind w = .option o (some v) := by
  rcases h with ⟨name, hn, rfl⟩ | ⟨h1, h2, rfl⟩
  · refine ⟨_, rfl, ?_⟩
    simp only [names, List.mem_cons, List.not_mem_nil, or_false] at hn
    rcases hn with rfl | rfl
    · show kind ('-' :: '-' :: (o.long ++ '=' :: v)) = _
      rw [kind_long _ (by simp), splitEq_name (long_no_eq o), (longOpt_iff _ o).mpr rfl]
    · show kind ('-' :: o.short :: ('=' :: v)) = _
      rw [kind_short (short_ne_dash o), (shortOpt_iff _ o).mpr rfl]
      rfl
  · refine ⟨_, rfl, ?_⟩
    rw [kind_short (short_ne_dash o), (shortOpt_iff _ o).mpr rfl]
    show Kind.option o (shortValue v) = _
    congr 1
    unfold shortValue
    split
    · exact absurd rfl h1
    · exact absurd rfl h2
    · rfl

theorem of_kind_none {o : Opt} {t : Text} (h : kind t = .option o none) : t ∈ names o := by
  rcases kind_cases t with h1 | h1 | ⟨u, rfl, hu⟩ | ⟨c, u, rfl, hc⟩
  · rw [h1.2] at h; cases h
  · rw [h1.2] at h; cases h
  · rw [kind_long u hu] at h
    split at h
    · rename_i o' ho
      injection h with h1 h2
      subst h1
      rcases splitEq_join u with ⟨n, v, e, -⟩ | e
      · rw [e] at h2; cases h2
      · rw [e] at ho
        rw [longOpt_iff] at ho
        simp only at ho
        rw [ho]
        simp [names]
    · split at h
      · split at h <;> cases h
      · cases h
  · rw [kind_short hc] at h
    split at h
    · rename_i o' ho
      injection h with h1 h2
      subst h1
      rw [shortOpt_iff] at ho
      subst ho
      have : u = [] := by
        unfold shortValue at h2
        split at h2
        · rfl
        · cases h2
        · cases h2
      subst this
      simp [names]
    · split at h <;> cases h

theorem of_kind_some {o : Opt} {t v : Text} (h : kind t = .option o (some v)) : (Given.joined o v).Written [t] := by
  rcases kind_cases t with h1 | h1 | ⟨u, rfl, hu⟩ | ⟨c, u, rfl, hc⟩
  · rw [h1.2] at h; cases h
  · rw [h1.2] at h; cases h
  · rw [kind_long u hu] at h
    split at h
    · rename_i o' ho
      injection h with h1 h2
      subst h1
      rcases splitEq_join u with ⟨n, v', e, e'⟩ | e
      · rw [e] at h2 ho
        rw [longOpt_iff] at ho
        simp only [Option.some.injEq] at ho h2
        subst h2; subst ho; subst e'
        exact .inl ⟨'-' :: '-' :: o'.long, by simp [names], rfl⟩
      · rw [e] at h2; cases h2
    · split at h
      · split at h <;> cases h
      · cases h
  · rw [kind_short hc] at h
    split at h
    · rename_i o' ho
      injection h with h1 h2
      subst h1
      rw [shortOpt_iff] at ho
      subst ho
      unfold shortValue at h2
      split at h2
      · cases h2
      · cases h2
        exact .inl ⟨['-', o'.short], by simp [names], rfl⟩
      · rename_i x y
        cases h2
        refine .inr ⟨x, ?_, rfl⟩
        intro e
        cases v with
        | nil => cases e
        | cons a v' =>
          rw [List.head?_cons] at e
          injection e with e
          subst e
          exact y v' rfl
    · split at h <;> cases h

theorem of_kind_value {t : Text} (h : kind t = .value) : Plain t := by
  rcases kind_cases t with h1 | h1 | ⟨u, rfl, hu⟩ | ⟨c, u, rfl, hc⟩
  · exact h1.1
  · rw [h1.2] at h; cases h
  · rw [kind_long u hu] at h
    split at h
    · cases h
    · split at h
      · split at h <;> cases h
      · cases h
  · rw [kind_short hc] at h
    split at h
    · cases h
    · split at h <;> cases h

theorem of_kind_escape {t : Text} (h : kind t = .escape) : t = ['-', '-'] := by
  rcases kind_cases t with h1 | h1 | ⟨u, rfl, hu⟩ | ⟨c, u, rfl, hc⟩
  · rw [h1.2] at h; cases h
  · exact h1.1
  · rw [kind_long u hu] at h
    split at h
    · cases h
    · split at h
      · split at h <;> cases h
      · cases h
  · rw [kind_short hc] at h
    split at h
    · cases h
    · split at h <;> cases h

/-! ### Whole command lines -/

/-- What a given option adds. -/
def storeGiven (s : Seen) : Given → Option Seen
  | .joined o v => store o [v] s
  | .spaced o vs => store o vs s

/-- What a list of given options adds. -/
def storeAll : List Given → Seen → Option Seen
  | [], s => some s
  | g :: gs, s => (storeGiven s g).bind (storeAll gs)

theorem store_iff {o : Opt} {vs : List Text} {s s' : Seen} (hm : o = .model → vs.length = 1) (h0 : vs ≠ []) :
    store o vs s = some s' ↔
      (s'.model.toList = s.model.toList ++ (if o = .model then vs else []) ∧
       s'.vars = s.vars ++ (if o = .variables then vs else []) ∧
       ∃ ns, s'.steps = s.steps ++ ns ∧ List.Forall₂ Number (if o = .steps then vs else []) ns) := by
  obtain ⟨m, a, b⟩ := s
  obtain ⟨m', a', b'⟩ := s'
  cases o with
  | model =>
    obtain ⟨v, rfl⟩ := List.length_eq_one_iff.mp (hm rfl)
    simp only [store, if_true, if_neg (by decide : ¬ Opt.model = .variables), if_neg (by decide : ¬ Opt.model = .steps),
      List.append_nil]
    cases m with
    | none =>
      simp only [Option.isSome_none, Bool.false_eq_true, if_false, Option.some.injEq, Seen.mk.injEq, Option.toList_none,
        List.nil_append]
      constructor
      · rintro ⟨rfl, rfl, rfl⟩
        exact ⟨rfl, rfl, [], by simp, .nil⟩
      · rintro ⟨h1, rfl, ns, rfl, h2⟩
        cases h2
        cases m' with
        | none => cases h1
        | some x => simp at h1; subst h1; simp
    | some x =>
      simp only [Option.isSome_some, if_true]
      constructor
      · intro h; cases h
      · rintro ⟨h1, -⟩
        cases m' with
        | none => cases h1
        | some y => simp at h1
  | «variables» =>
    cases vs with
    | nil => exact absurd rfl h0
    | cons v vs =>
      simp only [store, if_true, if_neg (by decide : ¬ Opt.variables = .model), if_neg (by decide : ¬ Opt.variables = .steps),
        List.append_nil, Option.some.injEq, Seen.mk.injEq]
      constructor
      · rintro ⟨rfl, rfl, rfl⟩
        exact ⟨rfl, rfl, [], by simp, .nil⟩
      · rintro ⟨h1, rfl, ns, rfl, h2⟩
        cases h2
        refine ⟨?_, rfl, by simp⟩
        cases m <;> cases m' <;> simp_all
  | steps =>
    cases vs with
    | nil => exact absurd rfl h0
    | cons v vs =>
      simp only [store, if_true, if_neg (by decide : ¬ Opt.steps = .model), if_neg (by decide : ¬ Opt.steps = .variables),
        List.append_nil]
      constructor
      · intro h
        cases hn : (v :: vs).mapM parseUSize with
        | none => rw [hn] at h; cases h
        | some ns =>
          rw [hn] at h
          simp only [Option.map_some, Option.some.injEq, Seen.mk.injEq] at h
          obtain ⟨rfl, rfl, rfl⟩ := h
          exact ⟨rfl, rfl, ns, rfl, (mapM_numbers _ _).mp hn⟩
      · rintro ⟨h1, rfl, ns, rfl, h2⟩
        rw [(mapM_numbers _ _).mpr h2]
        simp only [Option.map_some, Option.some.injEq, Seen.mk.injEq, and_true]
        cases m <;> cases m' <;> simp_all

/-- An option that is complete. -/
def Given.Good : Given → Prop
  | .joined _ _ => True
  | .spaced o vs => vs ≠ [] ∧ (o = .model → vs.length = 1)

theorem Given.Written.good {g : Given} {ws : List Text} (h : g.Written ws) : g.Good := by
  cases g with
  | joined o v => trivial
  | spaced o vs => exact ⟨h.2.2.1, h.2.2.2⟩

theorem all_good {gs : List Given} {wss : List (List Text)} (h : List.Forall₂ Given.Written gs wss) : ∀ g ∈ gs, g.Good := by
  induction h with
  | nil => intro g hg; cases hg
  | cons h1 _ ih =>
    intro g hg
    rcases List.mem_cons.mp hg with rfl | hg
    · exact h1.good
    · exact ih g hg

theorem forall₂_split {α β : Type} {R : α → β → Prop} {a b : List α} {ns : List β} (h : List.Forall₂ R (a ++ b) ns) :
    ∃ n1 n2, List.Forall₂ R a n1 ∧ List.Forall₂ R b n2 ∧ ns = n1 ++ n2 := by
  induction a generalizing ns with
  | nil => exact ⟨[], ns, .nil, h, rfl⟩
  | cons x a ih =>
    cases h with
    | cons h1 h2 =>
      obtain ⟨n1, n2, e1, e2, rfl⟩ := ih h2
      exact ⟨_ :: n1, n2, .cons h1 e1, e2, rfl⟩

theorem storeAll_iff (gs : List Given) (hg : ∀ g ∈ gs, g.Good) (s s' : Seen) : storeAll gs s = some s' ↔
    (s'.model.toList = s.model.toList ++ valuesOf .model gs ∧ s'.vars = s.vars ++ valuesOf .variables gs ∧
      ∃ ns, s'.steps = s.steps ++ ns ∧ List.Forall₂ Number (valuesOf .steps gs) ns) := by
  induction gs generalizing s with
  | nil =>
    simp only [storeAll, valuesOf, List.append_nil, Option.some.injEq]
    constructor
    · rintro rfl
      exact ⟨rfl, rfl, [], by simp, .nil⟩
    · rintro ⟨h1, h2, ns, h3, h4⟩
      cases h4
      obtain ⟨m, a, b⟩ := s
      obtain ⟨m', a', b'⟩ := s'
      cases m <;> cases m' <;> simp_all
  | cons g gs ih =>
    have ih := ih fun g' h => hg g' (by simp [h])
    have hgood := hg g (by simp)
    obtain ⟨o, vs, h0, hm, hs, hv⟩ : ∃ o vs, vs ≠ [] ∧ (o = .model → vs.length = 1) ∧ storeGiven s g = store o vs s ∧
        ∀ o', valuesOf o' (g :: gs) = (if o = o' then vs else []) ++ valuesOf o' gs := by
      cases g with
      | joined o v => exact ⟨o, [v], by simp, fun _ => rfl, rfl, fun _ => rfl⟩
      | spaced o vs => exact ⟨o, vs, hgood.1, hgood.2, rfl, fun _ => rfl⟩
    unfold storeAll
    rw [hs, hv, hv, hv]
    constructor
    · intro h
      obtain ⟨s1, h1, h2⟩ := Option.bind_eq_some_iff.mp h
      obtain ⟨a1, a2, ns, a3, a4⟩ := (store_iff hm h0).mp h1
      obtain ⟨b1, b2, ns', b3, b4⟩ := (ih s1).mp h2
      refine ⟨by rw [b1, a1, List.append_assoc], by rw [b2, a2, List.append_assoc], ns ++ ns', by
        rw [b3, a3, List.append_assoc], ?_⟩
      exact List.rel_append a4 b4
    · rintro ⟨c1, c2, ns, c3, c4⟩
      obtain ⟨n1, n2, e1, e2, rfl⟩ : ∃ n1 n2, List.Forall₂ Number (if o = .steps then vs else []) n1 ∧
          List.Forall₂ Number (valuesOf .steps gs) n2 ∧ ns = n1 ++ n2 := by
        exact forall₂_split c4
      -- the state in between
      have hmid : ∃ mm : Option Text, mm.toList = s.model.toList ++ (if o = .model then vs else []) := by
        by_cases ho : o = .model
        · rw [if_pos ho] at c1 ⊢
          obtain ⟨v, rfl⟩ := List.length_eq_one_iff.mp (hm ho)
          cases hsm : s.model with
          | none => exact ⟨some v, rfl⟩
          | some x =>
            rw [hsm] at c1
            cases hs' : s'.model with
            | none => rw [hs'] at c1; cases c1
            | some y => rw [hs'] at c1; simp at c1
        · rw [if_neg ho]
          exact ⟨s.model, by simp⟩
      obtain ⟨mm, hmm⟩ := hmid
      have h1 : store o vs s = some ⟨mm, s.vars ++ (if o = .variables then vs else []), s.steps ++ n1⟩ :=
        (store_iff hm h0).mpr ⟨hmm, rfl, n1, rfl, e1⟩
      rw [h1, Option.bind_some]
      refine (ih _).mpr ⟨?_, ?_, n2, ?_, e2⟩
      · rw [c1, hmm, List.append_assoc]
      · rw [c2, List.append_assoc]
      · rw [c3, List.append_assoc]

/-- A continuation that does not begin with a value finishes the option before it. -/
theorem parse_flush {p p' : Option (Opt × List Text)} {s s' : Seen} (h : flush p s = flush p' s') {ts : List Text}
    (ht : ∀ t ts', ts = t :: ts' → kind t ≠ .value) : parse p s ts = parse p' s' ts := by
  cases ts with
  | nil =>
    show finish p s = finish p' s'
    unfold finish
    rw [h]
  | cons t ts =>
    have ht := ht t ts rfl
    unfold parse
    cases hk : kind t with
    | escape =>
      simp only
      split
      · unfold finish; rw [h]
      · rfl
    | unknown => rfl
    | info => simp only [h]
    | value => exact absurd hk ht
    | option o a =>
      cases a with
      | none => simp only [h]
      | some v => simp only [h]

theorem parse_values {o : Opt} (vs : List Text) (hv : ∀ v ∈ vs, Plain v) (acc : List Text)
    (hm : o = .model → (acc ++ vs).length ≤ 1) (s : Seen) (ts : List Text) :
    parse (some (o, acc)) s (vs ++ ts) = parse (some (o, acc ++ vs)) s ts := by
  induction vs generalizing acc with
  | nil => simp
  | cons v vs ih =>
    rw [List.cons_append]
    conv_lhs => unfold parse
    rw [kind_plain (hv v (by simp))]
    simp only
    rw [if_neg, ih (fun v h => hv v (by simp [h])) (acc ++ [v]) (by
      intro ho
      have := hm ho
      simpa using this)]
    · simp
    · rintro ⟨ho, ha⟩
      have := hm ho
      cases acc with
      | nil => exact ha rfl
      | cons a acc => simp at this

/-- What follows is not a value. -/
def NoValue (ts : List Text) : Prop := ∀ t ts', ts = t :: ts' → kind t ≠ .value

theorem written_noValue {g : Given} {ws ts : List Text} (h : g.Written ws) : NoValue (ws ++ ts) := by
  intro t ts' e
  cases g with
  | joined o v =>
    obtain ⟨w, rfl, hw⟩ := kind_joined h
    injection e with e _
    rw [← e, hw]; simp
  | spaced o vs =>
    obtain ⟨⟨name, hn, rfl⟩, -⟩ := h
    injection e with e _
    rw [← e, kind_name hn]; simp

theorem parse_given {g : Given} {ws : List Text} (h : g.Written ws) (s : Seen) (ts : List Text) (ht : NoValue ts) :
    parse none s (ws ++ ts) = match storeGiven s g with
      | some s' => parse none s' ts
      | none => .error := by
  cases g with
  | joined o v =>
    obtain ⟨w, rfl, hw⟩ := kind_joined h
    show parse none s (w :: ts) = _
    conv_lhs => unfold parse
    rw [hw]
    rfl
  | spaced o vs =>
    obtain ⟨⟨name, hn, rfl⟩, h2, h3, h4⟩ := h
    show parse none s (name :: (vs ++ ts)) = _
    conv_lhs => unfold parse
    rw [kind_name hn]
    simp only [flush]
    rw [parse_values vs h2 [] (fun ho => by rw [List.nil_append, h4 ho])]
    show parse (some (o, vs)) s ts = match store o vs s with
      | some s' => parse none s' ts
      | none => .error
    cases hs : store o vs s with
    | some s' => exact parse_flush (by show store o vs s = some s'; exact hs) ht
    | none =>
      cases ts with
      | nil =>
        show finish _ _ = _
        unfold finish flush
        simp only [hs]
      | cons t ts =>
        have ht := ht t ts rfl
        simp only
        unfold parse
        have hf : flush (some (o, vs)) s = none := hs
        cases hk : kind t with
        | escape =>
          simp only
          split
          · unfold finish; rw [hf]
          · rfl
        | unknown => rfl
        | info => simp [hf]
        | value => exact absurd hk ht
        | option o a => cases a <;> simp [hf]

theorem parse_all {gs : List Given} {wss : List (List Text)} (h : List.Forall₂ Given.Written gs wss) (s : Seen)
    (tail : List Text) (ht : tail = [] ∨ tail = [['-', '-']]) :
    parse none s (wss.flatten ++ tail) = match storeAll gs s with
      | some s' => finish none s'
      | none => .error := by
  have htail : ∀ s, parse none s tail = finish none s := by
    intro s
    rcases ht with rfl | rfl
    · rfl
    · rfl
  have hnv : NoValue tail := by
    intro t ts e
    rcases ht with rfl | rfl
    · cases e
    · injection e with e _; rw [← e]; decide
  induction h generalizing s with
  | nil => exact htail s
  | @cons g ws gs wss h1 h2 ih =>
    rw [List.flatten_cons, List.append_assoc, parse_given h1]
    · unfold storeAll
      cases storeGiven s g with
      | none => rfl
      | some s' => exact ih s'
    · cases h2 with
      | nil => simpa using hnv
      | cons h3 h4 =>
        rw [List.flatten_cons, List.append_assoc]
        exact written_noValue h3

theorem parse_sound (ts : List Text) (p : Option (Opt × List Text)) (s : Seen) (a : Args) (h : parse p s ts = .args a)
    (hp : ∀ o vals, p = some (o, vals) → o = .model → vals.length ≤ 1) :
    ∃ vs gs wss tail, ts = vs ++ (wss.flatten ++ tail) ∧ List.Forall₂ Given.Written gs wss ∧ (tail = [] ∨ tail = [['-', '-']]) ∧
      (∀ v ∈ vs, Plain v) ∧ (p = none → vs = []) ∧
      (∀ o vals, p = some (o, vals) → o = .model → (vals ++ vs).length ≤ 1) ∧
      ∃ s1 s2, flush (p.map fun q => (q.1, q.2 ++ vs)) s = some s1 ∧ storeAll gs s1 = some s2 ∧ finish none s2 = .args a := by
  induction ts generalizing p s with
  | nil =>
    refine ⟨[], [], [], [], rfl, .nil, .inl rfl, by simp, fun _ => rfl, fun o vals e ho => by simpa using hp o vals e ho, ?_⟩
    have h : finish p s = .args a := h
    have hf : flush (p.map fun q => (q.1, q.2 ++ [])) s = flush p s := by
      cases p <;> simp
    rw [hf]
    unfold finish at h
    cases hs : flush p s with
    | none => rw [hs] at h; cases h
    | some s1 =>
      rw [hs] at h
      exact ⟨s1, s1, rfl, rfl, h⟩
  | cons t ts ih =>
    have hf : flush (p.map fun q => (q.1, q.2 ++ [])) s = flush p s := by
      cases p <;> simp
    have hp0 : ∀ o vals, p = some (o, vals) → o = .model → (vals ++ []).length ≤ 1 :=
      fun o vals e ho => by simpa using hp o vals e ho
    unfold parse at h
    cases hk : kind t with
    | escape =>
      rw [hk] at h
      simp only at h
      split at h
      · rename_i hts
        subst hts
        refine ⟨[], [], [], [['-', '-']], by rw [of_kind_escape hk]; rfl, .nil, .inr rfl, by simp, fun _ => rfl, hp0, ?_⟩
        rw [hf]
        unfold finish at h
        cases hs : flush p s with
        | none => rw [hs] at h; cases h
        | some s1 =>
          rw [hs] at h
          exact ⟨s1, s1, rfl, rfl, h⟩
      · cases h
    | unknown => rw [hk] at h; cases h
    | info =>
      rw [hk] at h
      simp only at h
      split at h <;> cases h
    | value =>
      rw [hk] at h
      simp only at h
      cases p with
      | none => cases h
      | some q =>
        obtain ⟨o, vals⟩ := q
        simp only at h
        split at h
        · cases h
        · rename_i hc
          have hlen : ∀ o' vals', some (o, vals ++ [t]) = some (o', vals') → o' = .model → vals'.length ≤ 1 := by
            intro o' vals' e ho
            simp only [Option.some.injEq, Prod.mk.injEq] at e
            obtain ⟨rfl, rfl⟩ := e
            have : vals = [] := by
              by_contra hne
              exact hc ⟨ho, hne⟩
            rw [this]
            simp
          obtain ⟨vs, gs, wss, tail, e1, e2, e3, e4, -, e5, e6⟩ := ih (some (o, vals ++ [t])) s h hlen
          refine ⟨t :: vs, gs, wss, tail, by rw [e1]; rfl, e2, e3, ?_, fun e => (by cases e), ?_, ?_⟩
          · intro v hv
            rcases List.mem_cons.mp hv with rfl | hv
            · exact of_kind_value hk
            · exact e4 v hv
          · intro o' vals' e ho
            simp only [Option.some.injEq, Prod.mk.injEq] at e
            obtain ⟨rfl, rfl⟩ := e
            have := e5 o (vals ++ [t]) rfl ho
            simpa using this
          · simpa using e6
    | option o att =>
      rw [hk] at h
      cases att with
      | some v =>
        simp only at h
        split at h
        · rename_i s1 hs
          obtain ⟨s0, h0, h1⟩ := Option.bind_eq_some_iff.mp hs
          obtain ⟨vs, gs, wss, tail, e1, e2, e3, -, e5, -, s2, s3, f1, f2, f3⟩ := ih none s1 h (by intro _ _ e; cases e)
          have hvs := e5 rfl
          subst hvs
          have f1 : some s1 = some s2 := f1
          cases f1
          refine ⟨[], .joined o v :: gs, [t] :: wss, tail, by rw [e1]; rfl, .cons (of_kind_some hk) e2, e3, by simp,
            fun _ => rfl, hp0, s0, s3, by rw [hf, h0], ?_, f3⟩
          show (store o [v] s0).bind (storeAll gs) = _
          rw [h1]
          exact f2
        · cases h
      | none =>
        simp only at h
        split at h
        · rename_i s0 h0
          obtain ⟨vs, gs, wss, tail, e1, e2, e3, e4, -, e5, s2, s3, f1, f2, f3⟩ := ih (some (o, [])) s0 h (by
            intro o' vals e _
            simp only [Option.some.injEq, Prod.mk.injEq] at e
            rw [← e.2]
            simp)
          have f1 : store o vs s0 = some s2 := f1
          have hne : vs ≠ [] := by
            rintro rfl
            unfold store at f1
            cases o <;> cases f1
          have hlen : o = .model → vs.length = 1 := by
            intro ho
            have := e5 o [] rfl ho
            rw [List.nil_append] at this
            have := List.length_pos_iff.mpr hne
            omega
          refine ⟨[], .spaced o vs :: gs, (t :: vs) :: wss, tail, by rw [e1]; simp,
            .cons ⟨⟨t, of_kind_none hk, rfl⟩, e4, hne, hlen⟩ e2, e3, by simp, fun _ => rfl, hp0, s0, s3, by rw [hf, h0], ?_, f3⟩
          show (store o vs s0).bind (storeAll gs) = _
          rw [f1]
          exact f2
        · cases h

theorem parse_sound_info (ts : List Text) (p : Option (Opt × List Text)) (s : Seen) (h : parse p s ts = .info)
    (hp : ∀ o vals, p = some (o, vals) → o = .model → vals.length ≤ 1) :
    ∃ vs gs wss tail, ts = vs ++ (wss.flatten ++ tail) ∧ List.Forall₂ Given.Written gs wss ∧ (∃ w after, tail = w :: after ∧ kind w = .info) ∧
      (∀ v ∈ vs, Plain v) ∧ (p = none → vs = []) ∧
      (∀ o vals, p = some (o, vals) → o = .model → (vals ++ vs).length ≤ 1) ∧
      ∃ s1 s2, flush (p.map fun q => (q.1, q.2 ++ vs)) s = some s1 ∧ storeAll gs s1 = some s2 := by
  induction ts generalizing p s with
  | nil =>
    have h : finish p s = .info := h
    unfold finish at h
    (repeat' split at h) <;> cases h
  | cons t ts ih =>
    have hf : flush (p.map fun q => (q.1, q.2 ++ [])) s = flush p s := by
      cases p <;> simp
    have hp0 : ∀ o vals, p = some (o, vals) → o = .model → (vals ++ []).length ≤ 1 :=
      fun o vals e ho => by simpa using hp o vals e ho
    unfold parse at h
    cases hk : kind t with
    | escape =>
      rw [hk] at h
      simp only at h
      unfold finish at h
      (repeat' split at h) <;> cases h
    | unknown => rw [hk] at h; cases h
    | info =>
      rw [hk] at h
      simp only at h
      split at h
      · rename_i hs
        obtain ⟨s1, hs⟩ := Option.isSome_iff_exists.mp hs
        exact ⟨[], [], [], t :: ts, rfl, .nil, ⟨t, ts, rfl, hk⟩, by simp, fun _ => rfl, hp0, s1, s1, by rw [hf, hs], rfl⟩
      · cases h
    | value =>
      rw [hk] at h
      simp only at h
      cases p with
      | none => cases h
      | some q =>
        obtain ⟨o, vals⟩ := q
        simp only at h
        split at h
        · cases h
        · rename_i hc
          have hlen : ∀ o' vals', some (o, vals ++ [t]) = some (o', vals') → o' = .model → vals'.length ≤ 1 := by
            intro o' vals' e ho
            simp only [Option.some.injEq, Prod.mk.injEq] at e
            obtain ⟨rfl, rfl⟩ := e
            have : vals = [] := by
              by_contra hne
              exact hc ⟨ho, hne⟩
            rw [this]
            simp
          obtain ⟨vs, gs, wss, tail, e1, e2, e3, e4, -, e5, e6⟩ := ih (some (o, vals ++ [t])) s h hlen
          refine ⟨t :: vs, gs, wss, tail, by rw [e1]; rfl, e2, e3, ?_, fun e => (by cases e), ?_, ?_⟩
          · intro v hv
            rcases List.mem_cons.mp hv with rfl | hv
            · exact of_kind_value hk
            · exact e4 v hv
          · intro o' vals' e ho
            simp only [Option.some.injEq, Prod.mk.injEq] at e
            obtain ⟨rfl, rfl⟩ := e
            have := e5 o (vals ++ [t]) rfl ho
            simpa using this
          · simpa using e6
    | option o att =>
      rw [hk] at h
      cases att with
      | some v =>
        simp only at h
        split at h
        · rename_i s1 hs
          obtain ⟨s0, h0, h1⟩ := Option.bind_eq_some_iff.mp hs
          obtain ⟨vs, gs, wss, tail, e1, e2, e3, -, e5, -, s2, s3, f1, f2⟩ := ih none s1 h (by intro _ _ e; cases e)
          have hvs := e5 rfl
          subst hvs
          have f1 : some s1 = some s2 := f1
          cases f1
          refine ⟨[], .joined o v :: gs, [t] :: wss, tail, by rw [e1]; rfl, .cons (of_kind_some hk) e2, e3, by simp,
            fun _ => rfl, hp0, s0, s3, by rw [hf, h0], ?_⟩
          show (store o [v] s0).bind (storeAll gs) = _
          rw [h1]
          exact f2
        · cases h
      | none =>
        simp only at h
        split at h
        · rename_i s0 h0
          obtain ⟨vs, gs, wss, tail, e1, e2, e3, e4, -, e5, s2, s3, f1, f2⟩ := ih (some (o, [])) s0 h (by
            intro o' vals e _
            simp only [Option.some.injEq, Prod.mk.injEq] at e
            rw [← e.2]
            simp)
          have f1 : store o vs s0 = some s2 := f1
          have hne : vs ≠ [] := by
            rintro rfl
            unfold store at f1
            cases o <;> cases f1
          have hlen : o = .model → vs.length = 1 := by
            intro ho
            have := e5 o [] rfl ho
            rw [List.nil_append] at this
            have := List.length_pos_iff.mpr hne
            omega
          refine ⟨[], .spaced o vs :: gs, (t :: vs) :: wss, tail, by rw [e1]; simp,
            .cons ⟨⟨t, of_kind_none hk, rfl⟩, e4, hne, hlen⟩ e2, e3, by simp, fun _ => rfl, hp0, s0, s3, by rw [hf, h0], ?_⟩
          show (store o vs s0).bind (storeAll gs) = _
          rw [f1]
          exact f2
        · cases h

theorem finish_iff (s : Seen) (a : Args) :
    finish none s = .args a ↔ s.model = some a.model ∧ s.vars = a.vars ∧ s.steps = a.steps := by
  obtain ⟨m, v, st⟩ := s
  obtain ⟨m', v', st'⟩ := a
  unfold finish
  cases m <;> simp [flush]

/-- C160: a command line is accepted exactly if it says what the arguments are. -/
theorem C160_accepted_iff (ts : List Text) (a : Args) : parseArgs ts = .args a ↔ Says ts a := by
  unfold parseArgs
  constructor
  · intro h
    obtain ⟨vs, gs, wss, tail, e1, e2, e3, -, e5, -, s1, s2, f1, f2, f3⟩ := parse_sound ts none {} a h (by intro _ _ e; cases e)
    have hvs := e5 rfl
    subst hvs
    cases f1
    obtain ⟨m1, m2, m3⟩ := (finish_iff s2 a).mp f3
    have hgood := all_good e2
    obtain ⟨n1, n2, ns, n3, n4⟩ := (storeAll_iff gs hgood {} s2).mp f2
    rw [m1] at n1
    rw [m2] at n2
    rw [m3] at n3
    refine ⟨gs, wss, e2, ?_, ?_, ?_, ?_⟩
    · rcases e3 with rfl | rfl
      · exact .inl (by rw [e1]; simp)
      · exact .inr (by rw [e1]; simp)
    · exact n1.symm
    · exact n2.symm
    · rw [n3]; exact n4
  · rintro ⟨gs, wss, h1, h2, h3, h4, h5⟩
    have hgood := all_good h1
    have hs : storeAll gs {} = some ⟨some a.model, a.vars, a.steps⟩ :=
      (storeAll_iff gs hgood {} _).mpr ⟨h3.symm, h4.symm, a.steps, rfl, h5⟩
    obtain ⟨tail, ht, e⟩ : ∃ tail, (tail = [] ∨ tail = [['-', '-']]) ∧ ts = wss.flatten ++ tail := by
      rcases h2 with h2 | h2
      · exact ⟨[], .inl rfl, by simp [h2]⟩
      · exact ⟨_, .inr rfl, h2⟩
    rw [e, parse_all h1 {} tail ht, hs]
    exact (finish_iff _ a).mpr ⟨rfl, rfl, rfl⟩

/-- C160: how the options are written and in which order they stand does not matter, only the values given for each. -/
theorem C160_same_values {gs gs' : List Given} {wss wss' : List (List Text)} (h : List.Forall₂ Given.Written gs wss)
    (h' : List.Forall₂ Given.Written gs' wss') (hv : ∀ o, valuesOf o gs = valuesOf o gs') :
    parseArgs wss.flatten = parseArgs wss'.flatten := by
  have e1 := parse_all h {} [] (.inl rfl)
  have e2 := parse_all h' {} [] (.inl rfl)
  rw [List.append_nil] at e1 e2
  unfold parseArgs
  have : storeAll gs {} = storeAll gs' {} := by
    apply Option.ext
    intro s
    rw [storeAll_iff gs (all_good h), storeAll_iff gs' (all_good h'), hv, hv, hv]
  rw [e1, e2, this]

/-- The arguments that ask for help or for the version. -/
def questions : List Text := ["--help".toList, "-h".toList, "--version".toList, "-V".toList]

/-- An argument that asks for help or for the version: one of those words, or a short one with anything attached. -/
def Asks (w : Text) : Prop := w ∈ questions ∨ ∃ rest, w = '-' :: 'h' :: rest ∨ w = '-' :: 'V' :: rest

theorem kind_info_iff (w : Text) : kind w = .info ↔ Asks w := by
  constructor
  · intro h
    match w, h with
    | [], h => cases h
    | [c], h =>
      by_cases hc : c = '-'
      · subst hc; cases h
      · unfold kind at h
        split at h <;> simp_all
    | c :: d :: t, h =>
      by_cases hc : c = '-'
      · subst hc
        by_cases hd : d = '-'
        · subst hd
          by_cases ht : t = []
          · subst ht; cases h
          · rw [kind_long t ht] at h
            split at h
            · cases h
            · split at h
              · rename_i hn
                split at h
                · rename_i hv
                  rcases splitEq_join t with ⟨n, v, e, -⟩ | e
                  · rw [e] at hv; cases hv
                  · rw [e] at hn
                    rcases hn with hn | hn
                    · simp only at hn; subst hn; exact .inl (by decide)
                    · simp only at hn; subst hn; exact .inl (by decide)
                · cases h
              · cases h
        · rw [kind_short hd] at h
          split at h
          · cases h
          · split at h
            · rename_i hh
              rcases hh with rfl | rfl
              · exact .inr ⟨t, .inl rfl⟩
              · exact .inr ⟨t, .inr rfl⟩
            · cases h
      · unfold kind at h
        split at h <;> simp_all
  · rintro (hw | ⟨rest, rfl | rfl⟩)
    · simp only [questions, List.mem_cons, List.not_mem_nil, or_false] at hw
      rcases hw with rfl | rfl | rfl | rfl <;> decide
    · rw [kind_short (by decide)]; rfl
    · rw [kind_short (by decide)]; rfl

theorem parse_prefix {gs : List Given} {wss : List (List Text)} (h : List.Forall₂ Given.Written gs wss) (s s' : Seen)
    (hs : storeAll gs s = some s') (tail : List Text) (ht : NoValue tail) :
    parse none s (wss.flatten ++ tail) = parse none s' tail := by
  induction h generalizing s with
  | nil => cases hs; rfl
  | @cons g ws gs wss h1 h2 ih =>
    obtain ⟨s1, e1, e2⟩ := Option.bind_eq_some_iff.mp hs
    rw [List.flatten_cons, List.append_assoc, parse_given h1, e1]
    · exact ih s1 e2
    · cases h2 with
      | nil => simpa using ht
      | cons h3 h4 =>
        rw [List.flatten_cons, List.append_assoc]
        exact written_noValue h3

/-- A line that asks for help or for the version, after options that are not wrong so far. -/
def AsksFor (ts : List Text) : Prop :=
  ∃ gs wss w after, List.Forall₂ Given.Written gs wss ∧ ts = wss.flatten ++ w :: after ∧ Asks w ∧
    (valuesOf .model gs).length ≤ 1 ∧ ∃ ns, List.Forall₂ Number (valuesOf .steps gs) ns

/-- C160: such a line is answered, whatever follows; the model need not have been given. -/
theorem C160_question_iff (ts : List Text) : parseArgs ts = .info ↔ AsksFor ts := by
  unfold parseArgs
  constructor
  · intro h
    obtain ⟨vs, gs, wss, tail, e1, e2, ⟨w, after, e3, hk⟩, -, e5, -, s1, s2, f1, f2⟩ :=
      parse_sound_info ts none {} h (by intro _ _ e; cases e)
    have hvs := e5 rfl
    subst hvs
    cases f1
    obtain ⟨n1, -, ns, -, n4⟩ := (storeAll_iff gs (all_good e2) {} s2).mp f2
    refine ⟨gs, wss, w, after, e2, by rw [e1, e3]; simp, (kind_info_iff w).mp hk, ?_, ns, n4⟩
    have : valuesOf .model gs = s2.model.toList := n1.symm
    rw [this]
    cases s2.model <;> simp
  · rintro ⟨gs, wss, w, after, h, rfl, hw, hm, ns, hn⟩
    have hk := (kind_info_iff w).mpr hw
    have hs : storeAll gs {} = some ⟨(valuesOf .model gs).head?, valuesOf .variables gs, ns⟩ := by
      refine (storeAll_iff gs (all_good h) {} _).mpr ⟨?_, rfl, ns, rfl, hn⟩
      match hv : valuesOf .model gs with
      | [] => rfl
      | [m] => rfl
      | _ :: _ :: _ => rw [hv] at hm; simp at hm
    rw [parse_prefix h _ _ hs (w :: after) (by intro t ts e; injection e with e _; rw [← e, hk]; simp)]
    unfold parse
    rw [hk]
    rfl

/-- C160: an accepted line acts as described elsewhere; a line that asks for help or for the version writes nothing and ends with
status 0; every other line writes nothing and ends with status 2. -/
theorem C160_call (e : Environment) (ts : List Text) :
    (∀ a, Says ts a → call e ts = mainEffect e a.model a.vars a.steps ∧ ∀ o, callStatus ts o = exitStatus o) ∧
    (AsksFor ts → ∀ tr o, call e ts tr o → tr = [] ∧ callStatus ts o = 0) ∧
    ((∀ a, ¬ Says ts a) → ¬ AsksFor ts → ∀ tr o, call e ts tr o → tr = [] ∧ callStatus ts o = 2) := by
  refine ⟨fun a h => ?_, fun h tr o hc => ?_, fun h h' tr o hc => ?_⟩
  · have h := (C160_accepted_iff ts a).mpr h
    unfold call callStatus
    rw [h]
    exact ⟨rfl, fun _ => rfl⟩
  · have h := (C160_question_iff ts).mpr h
    unfold call at hc
    unfold callStatus
    rw [h] at hc ⊢
    exact ⟨hc.1, rfl⟩
  · unfold call at hc
    unfold callStatus
    cases hp : parseArgs ts with
    | args a => exact absurd ((C160_accepted_iff ts a).mp hp) (h a)
    | info => exact absurd ((C160_question_iff ts).mp hp) h'
    | error => rw [hp] at hc; exact ⟨hc.1, rfl⟩

/-- C160: two readings of a line do not differ. -/
theorem C160_one_meaning {ts : List Text} {a b : Args} (ha : Says ts a) (hb : Says ts b) : a = b := by
  have h1 := (C160_accepted_iff ts a).mpr ha
  have h2 := (C160_accepted_iff ts b).mpr hb
  rw [h1] at h2
  exact Parsed.args.inj h2

/-! ### Examples -/

/-- A usual call, and the same call in other words. -/
example : parseArgs (["--model", "icon-d2", "--variables", "wind_10m", "temp_2m", "--steps", "1", "2", "3"].map String.toList) =
      .args ⟨"icon-d2".toList, ["wind_10m".toList, "temp_2m".toList], [1, 2, 3]⟩ ∧
    parseArgs (["-s1", "-v", "wind_10m", "-m=icon-d2", "-s", "2", "3", "-v=temp_2m"].map String.toList) =
      .args ⟨"icon-d2".toList, ["wind_10m".toList, "temp_2m".toList], [1, 2, 3]⟩ := by decide +kernel

/-- Names with commas between them are one name; it is the name of no variable. -/
example : parseArgs (["-m", "icon-d2", "-v", "wind_10m,temp_2m"].map String.toList) =
      .args ⟨"icon-d2".toList, ["wind_10m,temp_2m".toList], []⟩ := by decide +kernel

/-- Steps with commas between them, negative steps, a model that is missing or given twice, and unknown options are errors. -/
example : parseArgs (["-m", "icon-d2", "-s", "1,2"].map String.toList) = .error ∧
    parseArgs (["-m", "icon-d2", "-s", "-1"].map String.toList) = .error ∧
    parseArgs (["-v", "temp_2m"].map String.toList) = .error ∧
    parseArgs (["-m", "icon-d2", "-m", "icon-eu"].map String.toList) = .error ∧
    parseArgs (["-m", "icon-d2", "icon-eu"].map String.toList) = .error ∧
    parseArgs (["-m", "icon-d2", "--step", "1"].map String.toList) = .error ∧
    parseArgs (["-m", "icon-d2", "-v"].map String.toList) = .error := by decide +kernel

/-- The hypotheses of `C160_same_values` and `C160_question_iff` can be met. -/
example : List.Forall₂ Given.Written [.spaced .steps ["1".toList, "2".toList], .joined .model "icon-eu".toList]
    [["-s".toList, "1".toList, "2".toList], ["--model=icon-eu".toList]] := by
  refine .cons ⟨⟨_, .tail _ (.head _), rfl⟩, ?_, by simp, by intro h; cases h⟩ (.cons (.inl ⟨_, .head _, rfl⟩) .nil)
  intro v hv
  simp only [List.mem_cons, List.not_mem_nil, or_false] at hv
  rcases hv with rfl | rfl <;> exact .inl (by decide)

example : List.Forall₂ Number (valuesOf .steps [.spaced .steps ["1".toList, "+2".toList], .joined .model "icon-eu".toList])
    [1, 2] :=
  .cons ⟨[], "1".toList, rfl, .inl rfl, by decide, by decide, rfl, by decide⟩
    (.cons ⟨['+'], "2".toList, rfl, .inr rfl, by decide, by decide, rfl, by decide⟩ .nil)

end Verif.Props
