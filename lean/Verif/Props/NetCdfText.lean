import Verif.Model.NetCdfText
import Verif.Lemmas.Text
import Verif.Lemmas.Bytes
import Mathlib.Data.List.Induction

/-!
# C192: the text of a NetCDF header

The words of a text are what stands between its spaces.
-/

namespace Verif.Props

open Verif Verif.NetCdf

/-- The words of a text, with the (reversed) beginning of the first of them given. -/
def wordsFrom (begun : Text) : Text → List Text
  | [] => if begun = [] then [] else [begun.reverse]
  | c :: t => if c = ' ' then (if begun = [] then wordsFrom [] t else begun.reverse :: wordsFrom [] t) else wordsFrom (c :: begun) t

/-- The words of a text. -/
def wordsOf (t : Text) : List Text := wordsFrom [] t

/-- The numbers of an attribute as texts, in their order; `none` for characters. -/
def numbers (s : Shows) : Values → Option (List Text)
  | .bytes v => some (v.map fun b => dec b.toNat)
  | .chars _ => none
  | .shorts v => some (v.map decInt)
  | .ints v => some (v.map decInt)
  | .floats v => some (v.map s.float)
  | .doubles v => some (v.map s.double)

/-- Numbers are shown by a word (no floating-point number is shown by an empty text or one with a space). -/
def OneWord (s : Shows) : Prop := ∀ v, (s.float v ≠ [] ∧ ' ' ∉ s.float v) ∧ (s.double v ≠ [] ∧ ' ' ∉ s.double v)

theorem wordsFrom_word {w : Text} (hs : ' ' ∉ w) (begun rest : Text) (h : begun ≠ [] ∨ w ≠ []) :
    wordsFrom begun (w ++ ' ' :: rest) = (begun.reverse ++ w) :: wordsFrom [] rest := by
  induction w generalizing begun with
  | nil =>
    have hb : begun ≠ [] := by simpa using h
    simp [wordsFrom, hb]
  | cons c w ih =>
    have hc : c ≠ ' ' := fun e => hs (by simp [e])
    rw [List.cons_append, wordsFrom, if_neg hc, ih (fun hm => hs (by simp [hm])) _ (by simp)]
    simp

theorem wordsOf_word {w : Text} (hs : ' ' ∉ w) (h : w ≠ []) (rest : Text) : wordsOf (w ++ ' ' :: rest) = w :: wordsOf rest := by
  unfold wordsOf
  rw [wordsFrom_word hs [] rest (Or.inr h)]
  simp

theorem foldText_append {α : Type} (f : α → Text) (v : List α) (a : α) : foldText f (v ++ [a]) = f a ++ ' ' :: foldText f v := by
  simp [foldText, List.foldl_append]

theorem wordsOf_foldText {α : Type} (f : α → Text) (h : ∀ a, f a ≠ [] ∧ ' ' ∉ f a) (v : List α) :
    wordsOf (foldText f v) = (v.map f).reverse := by
  induction v using List.reverseRecOn with
  | nil => rfl
  | append_singleton v a ih => rw [foldText_append, wordsOf_word (h a).2 (h a).1, ih]; simp

theorem dec_word (n : Nat) : dec n ≠ [] ∧ ' ' ∉ dec n := by
  refine ⟨fun h => ?_, fun h => ?_⟩
  · have := dec_length_pos n
    rw [h] at this
    simp at this
  · exact absurd (dec_digits n _ h) (by decide)

theorem decInt_word (i : Int) : decInt i ≠ [] ∧ ' ' ∉ decInt i := by
  unfold decInt
  split
  · exact ⟨by simp, by simp [(dec_word _).2]⟩
  · exact dec_word _

theorem decInt_inj {i j : Int} (h : decInt i = decInt j) : i = j := by
  have key : ∀ n m, '-' :: dec n ≠ dec m := fun n m e => by
    have := dec_digits m '-' (by rw [← e]; simp)
    revert this
    decide
  unfold decInt at h
  split at h <;> split at h
  · have := dec_inj (List.cons.inj h).2
    omega
  · exact absurd h (key _ _)
  · exact absurd h.symm (key _ _)
  · have := dec_inj h
    omega

/-- C192: the text of the numbers of an attribute consists of these numbers in reverse order. -/
theorem C192_reversed {s : Shows} (hs : OneWord s) {v : Values} {ns : List Text} (h : numbers s v = some ns) :
    wordsOf (v.text s) = ns.reverse := by
  cases v <;> simp only [numbers, Option.some.injEq, reduceCtorEq] at h <;> subst h
  · exact wordsOf_foldText _ (fun _ => dec_word _) _
  · exact wordsOf_foldText _ decInt_word _
  · exact wordsOf_foldText _ decInt_word _
  · exact wordsOf_foldText _ (fun a => (hs a).1) _
  · exact wordsOf_foldText _ (fun a => (hs a).2) _

/-- C192: they are shown in their order exactly if the order does not matter. -/
theorem C192_in_order {s : Shows} (hs : OneWord s) {v : Values} {ns : List Text} (h : numbers s v = some ns) :
    wordsOf (v.text s) = ns ↔ ns.reverse = ns := by
  rw [C192_reversed hs h]

/-- C192: it is not so that the numbers of an attribute are shown in their order. -/
theorem C192_counterexample (s : Shows) :
    ¬ ∀ (v : Values) (ns : List Text), numbers s v = some ns → wordsOf (v.text s) = ns := by
  intro h
  have := h (.shorts [1, 2]) [['1'], ['2']] (by simp [numbers, decInt, dec, Nat.digitChar])
  revert this
  have e : Values.text s (.shorts [1, 2]) = ['2', ' ', '1', ' '] := by simp [Values.text, foldText, decInt, dec, Nat.digitChar]
  rw [e]
  decide

/-- C192: characters are shown in their order. -/
theorem C192_characters (s : Shows) (v : List UInt8) (k : Nat) :
    ((Values.chars v).text s)[k]? = (v[k]?).map fun b => Char.ofNat b.toNat := by
  simp [Values.text]

/-- C192: the text of whole numbers of a kind says which numbers they are. -/
theorem C192_lossless {s : Shows} :
    (∀ a b : List UInt8, (Values.bytes a).text s = (Values.bytes b).text s → a = b) ∧
    (∀ a b : List Int, (Values.shorts a).text s = (Values.shorts b).text s → a = b) ∧
    (∀ a b : List Int, (Values.ints a).text s = (Values.ints b).text s → a = b) := by
  have key : ∀ a b : List Int, foldText decInt a = foldText decInt b → a = b := by
    intro a b h
    have := congrArg wordsOf h
    rw [wordsOf_foldText _ decInt_word, wordsOf_foldText _ decInt_word, List.reverse_inj] at this
    exact List.map_injective_iff.mpr (fun _ _ => decInt_inj) this
  refine ⟨fun a b h => ?_, key, key⟩
  have := congrArg wordsOf h
  simp only [Values.text] at this
  rw [wordsOf_foldText _ (fun _ => dec_word _), wordsOf_foldText _ (fun _ => dec_word _), List.reverse_inj] at this
  exact List.map_injective_iff.mpr (fun _ _ e => UInt8.toNat_inj.mp (dec_inj e)) this

/-- The text of a variable has a line with what is shown for its dimensions. -/
def DimIdLine (t : Text) (shown : Text) : Prop := ∃ before after, t = before ++ "  dim_ids: ".toList ++ shown ++ '\n' :: after

theorem wordsOf_flatMap (ids : List Nat) : wordsOf (ids.flatMap fun i => dec i ++ [' ']) = ids.map dec := by
  induction ids with
  | nil => rfl
  | cons a l ih =>
    rw [List.flatMap_cons, List.append_assoc, List.singleton_append, wordsOf_word (dec_word a).2 (dec_word a).1, ih]
    rfl

/-- C192: the numbers of the dimensions of a variable are shown in their order. -/
theorem C192_dim_ids (s : Shows) (v : Var) : ∃ shown, DimIdLine (v.text s) shown ∧ wordsOf shown = v.dimIds.map dec := by
  refine ⟨v.dimIds.flatMap fun i => dec i ++ [' '],
    ⟨"VAR:\n".toList ++ line "name" (stringText v.name) ++ line "nc_type" v.ncType.text ++ line "size" (dec v.size) ++
      line "begin" (dec v.begin), line "attributes" (dec v.attributes.length) ++ v.attributes.flatMap (Attr.text s) ++ ['\n'], ?_⟩,
    wordsOf_flatMap _⟩
  have e : line "dim_ids" (v.dimIds.flatMap fun i => dec i ++ [' ']) =
      "  dim_ids: ".toList ++ (v.dimIds.flatMap fun i => dec i ++ [' ']) ++ ['\n'] := by
    unfold line
    rfl
  unfold Var.text
  rw [e]
  simp only [List.append_assoc, List.cons_append, List.nil_append]

theorem digits_line {a b x y : Text} (ha : ∀ c ∈ a, c.isDigit = true) (hb : ∀ c ∈ b, c.isDigit = true)
    (h : a ++ '\n' :: x = b ++ '\n' :: y) : a = b ∧ x = y := by
  induction a generalizing b with
  | nil =>
    cases b with
    | nil => exact ⟨rfl, (List.cons.inj h).2⟩
    | cons c b =>
      have := hb c (by simp)
      rw [← (List.cons.inj h).1] at this
      exact absurd this (by decide)
  | cons d a ih =>
    cases b with
    | nil =>
      have := ha d (by simp)
      rw [(List.cons.inj h).1] at this
      exact absurd this (by decide)
    | cons c b =>
      obtain ⟨e1, e2⟩ := List.cons.inj h
      obtain ⟨e3, e4⟩ := ih (fun c hc => ha c (by simp [hc])) (fun c hc => hb c (by simp [hc])) e2
      exact ⟨by rw [e1, e3], e4⟩

theorem line_inj {k : String} {a b : Nat} {x y : Text} (h : line k (dec a) ++ x = line k (dec b) ++ y) : a = b ∧ x = y := by
  unfold line at h
  simp only [List.append_assoc, List.singleton_append] at h
  have h := List.append_cancel_left (List.append_cancel_left (List.append_cancel_left h))
  obtain ⟨e1, e2⟩ := digits_line (dec_digits a) (dec_digits b) h
  exact ⟨dec_inj e1, e2⟩

/-- C192: the text of a header that was read says how many records and how many dimensions the file has. -/
theorem C192_counts (s : Shows) {f g restf restg : List UInt8} {h k : Header} (hf : readHeader f = .ok (h, restf))
    (hg : readHeader g = .ok (k, restg)) (e : h.text s = k.text s) : h.numRecs = k.numRecs ∧ h.dimList.length = k.dimList.length := by
  have hm : ∀ {f rest : List UInt8} {h : Header}, readHeader f = .ok (h, rest) → h.magic = ⟨netcdfMagic, 2⟩ := by
    intro f rest h hf
    obtain ⟨magic, s1, h1, hf⟩ := Rd.bind_ok_iff.mp hf
    obtain ⟨n, s2, -, hf⟩ := Rd.bind_ok_iff.mp hf
    obtain ⟨d, s3, -, hf⟩ := Rd.bind_ok_iff.mp hf
    obtain ⟨a, s4, -, hf⟩ := Rd.bind_ok_iff.mp hf
    obtain ⟨v, s5, -, hf⟩ := Rd.bind_ok_iff.mp hf
    obtain ⟨t, s6, -, h1⟩ := Rd.bind_ok_iff.mp h1
    obtain ⟨w, s7, -, h1⟩ := Rd.bind_ok_iff.mp h1
    have e : h.magic = magic := by cases hf; rfl
    rw [e]
    unfold Rd.lift Magic.new at h1
    by_cases ht : t = netcdfMagic
    · by_cases hw : w = 2
      · subst ht hw
        cases h1
        rfl
      · simp [ht, hw] at h1
    · simp [ht] at h1
  unfold Header.text at e
  rw [hm hf, hm hg] at e
  simp only [List.append_assoc] at e
  have e := List.append_cancel_left (List.append_cancel_left e)
  obtain ⟨e1, e2⟩ := line_inj e
  exact ⟨e1, (line_inj e2).1⟩

/-- A way of showing numbers. -/
def someShows : Shows := ⟨fun _ => ['x'], fun _ => ['y']⟩

/-- A real attribute: the range of a variable. -/
example : OneWord someShows ∧ numbers someShows (.ints [-5, 40]) = some [['-', '5'], ['4', '0']] ∧
    (Values.ints [-5, 40]).text someShows = "40 -5 ".toList := by
  refine ⟨fun v => by simp [someShows], ?_, ?_⟩
  · simp [numbers, decInt, dec, Nat.digitChar]
  · simp [Values.text, foldText, decInt, dec, Nat.digitChar]

/-- A file without records and one with two records: both are read, their texts differ. -/
example (s : Shows) : ∃ h k, readHeader ([0x43, 0x44, 0x46, 2, 0, 0, 0, 0] ++ List.replicate 24 0) = .ok (h, []) ∧
    readHeader ([0x43, 0x44, 0x46, 2, 0, 0, 0, 2] ++ List.replicate 24 0) = .ok (k, []) ∧ h.text s ≠ k.text s := by
  have h1 : readHeader ([0x43, 0x44, 0x46, 2, 0, 0, 0, 0] ++ List.replicate 24 0) =
    .ok (⟨⟨netcdfMagic, 2⟩, 0, [], [], []⟩, []) := by decide +kernel
  have h2 : readHeader ([0x43, 0x44, 0x46, 2, 0, 0, 0, 2] ++ List.replicate 24 0) =
    .ok (⟨⟨netcdfMagic, 2⟩, 2, [], [], []⟩, []) := by decide +kernel
  exact ⟨_, _, h1, h2, fun e => absurd (C192_counts s h1 h2 e).1 (by decide)⟩

/-- The dimensions of a variable, in the order of the file. -/
example (s : Shows) : ∃ shown, DimIdLine ((⟨[0x74], [2, 0, 1], [], .ncFloat, 4, 100⟩ : Var).text s) shown ∧
    wordsOf shown = [['2'], ['0'], ['1']] := by
  obtain ⟨shown, h1, h2⟩ := C192_dim_ids s ⟨[0x74], [2, 0, 1], [], .ncFloat, 4, 100⟩
  exact ⟨shown, h1, by rw [h2]; simp [dec, Nat.digitChar]⟩

/-- A single number, as nearly all attributes have, is shown as it should be. -/
example (s : Shows) : (Values.shorts [-1]).text s = "-1 ".toList := by simp [Values.text, foldText, decInt, dec, Nat.digitChar]

end Verif.Props
