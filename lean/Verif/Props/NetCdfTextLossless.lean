import Verif.Props.NetCdfText
import Verif.Props.NetCdfSound

/-!
# C192: nothing is lost in the text of a header

The text of a header says everything about the header, in spite of the reversed values, unless names or texts in the file contain
line breaks.
-/

namespace Verif.Props

open Verif Verif.NetCdf

/-- What is known of Rust's texts of floating-point numbers: different numbers are shown differently, each by one word on one line. -/
structure Faithful (s : Shows) : Prop where
  words : OneWord s
  float : ∀ m n, s.float (f32OfBits m) = s.float (f32OfBits n) → f32OfBits m = f32OfBits n
  double : ∀ m n, s.double (f64OfBits m) = s.double (f64OfBits n) → f64OfBits m = f64OfBits n
  oneLine : ∀ v, '\n' ∉ s.float v ∧ '\n' ∉ s.double v

/-- A name that is UTF-8 and has no line break. -/
def PlainName (n : List UInt8) : Prop := ∃ c, n = Spec.NetCdf.utf8 c ∧ '\n' ∉ c

/-- Values of a type, of characters such that there is no line break. -/
def PlainValues : ValueType → Values → Prop
  | .ncByte, .bytes _ => True
  | .ncChar, .chars v => 10 ∉ v
  | .ncShort, .shorts _ => True
  | .ncInt, .ints _ => True
  | .ncFloat, .floats v => ∀ x ∈ v, ∃ n, x = f32OfBits n
  | .ncDouble, .doubles v => ∀ x ∈ v, ∃ n, x = f64OfBits n
  | _, _ => False

/-- An attribute without line breaks. -/
def PlainAttr (a : Attr) : Prop := PlainName a.name ∧ PlainValues a.ncType a.values

/-- A variable without line breaks. -/
def PlainVar (v : Var) : Prop := PlainName v.name ∧ ∀ a ∈ v.attributes, PlainAttr a

/-- A header without line breaks. -/
structure PlainHeader (h : Header) : Prop where
  magic : PlainName h.magic.magic
  dims : ∀ d ∈ h.dimList, PlainName d.name
  atts : ∀ a ∈ h.attList, PlainAttr a
  vars : ∀ v ∈ h.varList, PlainVar v

theorem upToBreak {n : Char} {a b x y : Text} (ha : n ∉ a) (hb : n ∉ b) (h : a ++ n :: x = b ++ n :: y) : a = b ∧ x = y := by
  induction a generalizing b with
  | nil =>
    cases b with
    | nil => exact ⟨rfl, (List.cons.inj h).2⟩
    | cons c b => exact absurd (by rw [(List.cons.inj h).1]; simp) hb
  | cons d a ih =>
    cases b with
    | nil => exact absurd (by simp [(List.cons.inj h).1]) ha
    | cons c b =>
      obtain ⟨e1, e2⟩ := List.cons.inj h
      obtain ⟨e3, e4⟩ := ih (fun hc => ha (by simp [hc])) (fun hc => hb (by simp [hc])) e2
      exact ⟨by rw [e1, e3], e4⟩

theorem line_upTo {k : String} {a b x y : Text} (ha : '\n' ∉ a) (hb : '\n' ∉ b) (h : line k a ++ x = line k b ++ y) :
    a = b ∧ x = y := by
  unfold line at h
  simp only [List.append_assoc, List.singleton_append] at h
  exact upToBreak ha hb (List.append_cancel_left (List.append_cancel_left (List.append_cancel_left h)))

theorem flatMap_upTo {α : Type} {f : α → Text} {P : α → Prop}
    (hf : ∀ a b x y, P a → P b → f a ++ x = f b ++ y → a = b ∧ x = y) {l m : List α} (hl : ∀ a ∈ l, P a) (hm : ∀ a ∈ m, P a)
    (he : l.length = m.length) {x y : Text} (h : l.flatMap f ++ x = m.flatMap f ++ y) : l = m ∧ x = y := by
  induction l generalizing m with
  | nil =>
    cases m with
    | nil => exact ⟨rfl, h⟩
    | cons _ _ => simp at he
  | cons a l ih =>
    cases m with
    | nil => simp at he
    | cons b m =>
      rw [List.flatMap_cons, List.flatMap_cons, List.append_assoc, List.append_assoc] at h
      obtain ⟨rfl, e⟩ := hf _ _ _ _ (hl a (by simp)) (hm b (by simp)) h
      obtain ⟨rfl, e2⟩ := ih (fun a h => hl a (by simp [h])) (fun a h => hm a (by simp [h])) (by simpa using he) e
      exact ⟨rfl, e2⟩

theorem dec_oneLine (n : Nat) : '\n' ∉ dec n := fun h => absurd (dec_digits n _ h) (by decide)

theorem decInt_oneLine (i : Int) : '\n' ∉ decInt i := by
  unfold decInt
  split
  · simp [dec_oneLine]
  · exact dec_oneLine _

theorem foldText_oneLine {α : Type} {f : α → Text} (hf : ∀ a, '\n' ∉ f a) (v : List α) : '\n' ∉ foldText f v := by
  induction v using List.reverseRecOn with
  | nil => simp [foldText]
  | append_singleton v a ih => rw [foldText_append]; simp [hf a, ih]

theorem foldText_inj {α : Type} {f : α → Text} (hw : ∀ a, f a ≠ [] ∧ ' ' ∉ f a) {P : α → Prop}
    (hf : ∀ a b, P a → P b → f a = f b → a = b) {v w : List α} (hv : ∀ a ∈ v, P a) (hw' : ∀ a ∈ w, P a)
    (h : foldText f v = foldText f w) : v = w := by
  have := congrArg wordsOf h
  rw [wordsOf_foldText _ hw, wordsOf_foldText _ hw, List.reverse_inj] at this
  clear h
  induction v generalizing w with
  | nil =>
    cases w with
    | nil => rfl
    | cons _ _ => simp at this
  | cons a v ih =>
    cases w with
    | nil => simp at this
    | cons b w =>
      simp only [List.map_cons, List.cons.injEq] at this
      rw [hf _ _ (hv a (by simp)) (hw' b (by simp)) this.1, ih (fun a h => hv a (by simp [h])) (fun a h => hw' a (by simp [h])) this.2]

theorem latin1_inj {a b : UInt8} (h : Char.ofNat a.toNat = Char.ofNat b.toNat) : a = b := by
  have ha := a.toNat_lt
  have hb := b.toNat_lt
  have key : ∀ n < 2 ^ 8, (Char.ofNat n).toNat = n := by decide +kernel
  have := congrArg Char.toNat h
  rw [key _ ha, key _ hb] at this
  exact UInt8.toNat_inj.mp this

theorem values_oneLine {s : Shows} (hs : Faithful s) {t : ValueType} {v : Values} (h : PlainValues t v) : '\n' ∉ v.text s := by
  cases v <;> simp only [Values.text]
  · exact foldText_oneLine (fun _ => dec_oneLine _) _
  · rename_i v
    have hv : 10 ∉ v := by cases t <;> simp_all [PlainValues]
    simp only [List.mem_map, not_exists, not_and]
    intro b hb e
    have : b = 10 := latin1_inj (by rw [e]; rfl)
    exact hv (this ▸ hb)
  · exact foldText_oneLine decInt_oneLine _
  · exact foldText_oneLine decInt_oneLine _
  · exact foldText_oneLine (fun v => (hs.oneLine v).1) _
  · exact foldText_oneLine (fun v => (hs.oneLine v).2) _

theorem values_inj {s : Shows} (hs : Faithful s) {t : ValueType} {v w : Values} (hv : PlainValues t v) (hw : PlainValues t w)
    (h : v.text s = w.text s) : v = w := by
  cases t <;> cases v <;> simp only [PlainValues] at hv <;> cases w <;> simp only [PlainValues] at hw <;> simp only [Values.text] at h
  · rw [foldText_inj (P := fun _ => True) (fun _ => dec_word _) (fun a b _ _ e => UInt8.toNat_inj.mp (dec_inj e))
      (fun _ _ => trivial) (fun _ _ => trivial) h]
  · rw [List.map_injective_iff.mpr (fun _ _ => latin1_inj) h]
  · rw [foldText_inj (P := fun _ => True) decInt_word (fun a b _ _ e => decInt_inj e) (fun _ _ => trivial) (fun _ _ => trivial) h]
  · rw [foldText_inj (P := fun _ => True) decInt_word (fun a b _ _ e => decInt_inj e) (fun _ _ => trivial) (fun _ _ => trivial) h]
  · rw [foldText_inj (P := fun x => ∃ n, x = f32OfBits n) (fun a => (hs.words a).1)
      (by rintro _ _ ⟨m, rfl⟩ ⟨n, rfl⟩ e; exact hs.float m n e) hv hw h]
  · rw [foldText_inj (P := fun x => ∃ n, x = f64OfBits n) (fun a => (hs.words a).2)
      (by rintro _ _ ⟨m, rfl⟩ ⟨n, rfl⟩ e; exact hs.double m n e) hv hw h]

theorem type_oneLine (t : ValueType) : '\n' ∉ t.text := by cases t <;> decide

theorem type_inj {t u : ValueType} (h : t.text = u.text) : t = u := by
  cases t <;> cases u <;> first | rfl | (revert h; decide)

theorem stringText_utf8 (c : List Char) : stringText (Spec.NetCdf.utf8 c) = c := by
  have : (Spec.NetCdf.utf8 c).toByteArray = c.utf8Encode := rfl
  unfold stringText
  rw [this, List.utf8Decode?_utf8Encode]
  simp

theorem name_upTo {k : String} {a b : List UInt8} {x y : Text} (ha : PlainName a)
    (hb : PlainName b) (h : line k (stringText a) ++ x = line k (stringText b) ++ y) : a = b ∧ x = y := by
  obtain ⟨c, rfl, hc⟩ := ha
  obtain ⟨d, rfl, hd⟩ := hb
  rw [stringText_utf8, stringText_utf8] at h
  obtain ⟨e1, e2⟩ := line_upTo hc hd h
  exact ⟨by rw [e1], e2⟩

theorem dim_upTo (d e : Dim) (x y : Text) (hd : PlainName d.name) (he : PlainName e.name)
    (h : d.text ++ x = e.text ++ y) : d = e ∧ x = y := by
  unfold Dim.text at h
  simp only [List.append_assoc] at h
  obtain ⟨e1, h1⟩ := name_upTo hd he (List.append_cancel_left h)
  obtain ⟨e2, h2⟩ := line_inj h1
  refine ⟨?_, h2⟩
  cases d
  cases e
  simp only at e1 e2
  rw [e1, e2]

theorem attr_upTo {s : Shows} (hs : Faithful s) (a b : Attr) (x y : Text) (ha : PlainAttr a) (hb : PlainAttr b)
    (h : a.text s ++ x = b.text s ++ y) : a = b ∧ x = y := by
  obtain ⟨an, at', av⟩ := a
  obtain ⟨bn, bt, bv⟩ := b
  unfold Attr.text at h
  simp only [List.append_assoc] at h
  obtain ⟨e1, h1⟩ := name_upTo (a := an) (b := bn) ha.1 hb.1 (List.append_cancel_left h)
  obtain ⟨e2, h2⟩ := line_upTo (type_oneLine _) (type_oneLine _) h1
  obtain rfl := type_inj e2
  obtain ⟨e3, h3⟩ := line_upTo (values_oneLine hs ha.2) (values_oneLine hs hb.2) h2
  have e4 : av = bv := values_inj hs ha.2 hb.2 e3
  exact ⟨by rw [e1, e4], h3⟩

theorem ids_inj {l m : List Nat} (h : (l.flatMap fun i => dec i ++ [' ']) = m.flatMap fun i => dec i ++ [' ']) : l = m := by
  have := congrArg wordsOf h
  rw [wordsOf_flatMap, wordsOf_flatMap] at this
  exact List.map_injective_iff.mpr (fun _ _ => dec_inj) this

theorem ids_oneLine (l : List Nat) : '\n' ∉ l.flatMap fun i => dec i ++ [' '] := by
  simp [dec_oneLine]

theorem var_upTo {s : Shows} (hs : Faithful s) (v w : Var) (x y : Text) (hv : PlainVar v) (hw : PlainVar w)
    (h : v.text s ++ x = w.text s ++ y) : v = w ∧ x = y := by
  obtain ⟨vn, vi, va, vt, vs, vb⟩ := v
  obtain ⟨wn, wi, wa, wt, ws, wb⟩ := w
  unfold Var.text at h
  simp only [List.append_assoc] at h
  obtain ⟨e1, h1⟩ := name_upTo (a := vn) (b := wn) hv.1 hw.1 (List.append_cancel_left h)
  obtain ⟨e2, h2⟩ := line_upTo (type_oneLine _) (type_oneLine _) h1
  obtain ⟨e3, h3⟩ := line_inj h2
  obtain ⟨e4, h4⟩ := line_inj h3
  obtain ⟨e5, h5⟩ := line_upTo (ids_oneLine _) (ids_oneLine _) h4
  obtain ⟨e6, h6⟩ := line_inj h5
  obtain ⟨e7, h7⟩ := flatMap_upTo (attr_upTo hs) hv.2 hw.2 e6 h6
  have e8 : va = wa := e7
  exact ⟨by rw [e1, type_inj e2, e3, e4, ids_inj e5, e8], List.append_cancel_left h7⟩

/-- C192: two headers without line breaks that have the same text are the same. -/
theorem C192_header {s : Shows} (hs : Faithful s) {h k : Header} (hh : PlainHeader h) (hk : PlainHeader k)
    (e : h.text s = k.text s) : h = k := by
  obtain ⟨⟨hm, hv⟩, hr, hd, ha, hx⟩ := h
  obtain ⟨⟨km, kv⟩, kr, kd, ka, kx⟩ := k
  unfold Header.text Magic.text at e
  simp only [List.append_assoc] at e
  obtain ⟨e1, h1⟩ := name_upTo (a := hm) (b := km) hh.magic hk.magic (List.append_cancel_left e)
  obtain ⟨e2, h2⟩ := line_inj h1
  obtain ⟨e3, h3⟩ := line_inj h2
  obtain ⟨n4, h4⟩ := line_inj h3
  obtain ⟨e5, h5⟩ := flatMap_upTo (P := fun d : Dim => PlainName d.name) dim_upTo hh.dims hk.dims n4 h4
  obtain ⟨n6, h6⟩ := line_inj (List.append_cancel_left h5)
  obtain ⟨e7, h7⟩ := flatMap_upTo (attr_upTo hs) hh.atts hk.atts n6 h6
  obtain ⟨n8, h8⟩ := line_inj (List.append_cancel_left h7)
  obtain ⟨e9, -⟩ := flatMap_upTo (var_upTo hs) hh.vars hk.vars n8 h8
  have e5 : hd = kd := e5
  have e7 : ha = ka := e7
  have e9 : hx = kx := e9
  rw [e1, e2, e3, e5, e7, e9]

/-- No line break (byte 10) in names and texts of attributes. -/
def NoBreaksIn (a : Attr) : Prop := 10 ∉ a.name ∧ ∀ v, a.values = .chars v → 10 ∉ v

/-- No line break (byte 10) in names and texts of a header. -/
structure NoBreaks (h : Header) : Prop where
  dims : ∀ d ∈ h.dimList, 10 ∉ d.name
  atts : ∀ a ∈ h.attList, NoBreaksIn a
  vars : ∀ v ∈ h.varList, 10 ∉ v.name ∧ ∀ a ∈ v.attributes, NoBreaksIn a

theorem plainName {c : List Char} (h : 10 ∉ Spec.NetCdf.utf8 c) : PlainName (Spec.NetCdf.utf8 c) := by
  refine ⟨c, rfl, fun hc => h ?_⟩
  unfold Spec.NetCdf.utf8
  exact List.mem_flatMap.mpr ⟨'\n', hc, by decide⟩

theorem plainAttr {a : Spec.NetCdf.Attr} (hk : a.ok) (h : NoBreaksIn (attrOf a)) : PlainAttr (attrOf a) := by
  refine ⟨plainName h.1, ?_⟩
  obtain ⟨n, d⟩ := a
  cases d
  · trivial
  · exact h.2 _ rfl
  · trivial
  · trivial
  · intro x hx
    obtain ⟨w, hw, rfl⟩ := List.mem_map.mp hx
    exact ⟨w.bits, (f32OfBits_bits w (hk.2.1 w hw)).symm⟩
  · intro x hx
    obtain ⟨w, hw, rfl⟩ := List.mem_map.mp hx
    exact ⟨w.bits, (f64OfBits_bits w (hk.2.1 w hw)).symm⟩

/-- C192: two files whose headers have the same text have the same header, if there are no line breaks in names and texts. -/
theorem C192_files {s : Shows} (hs : Faithful s) {f g restf restg : List UInt8} {h k : Header}
    (hf : readHeader f = .ok (h, restf)) (hg : readHeader g = .ok (k, restg)) (hh : NoBreaks h) (hk : NoBreaks k)
    (e : h.text s = k.text s) : h = k := by
  have key : ∀ {f rest : List UInt8} {h : Header}, readHeader f = .ok (h, rest) → NoBreaks h → PlainHeader h := by
    intro f rest h hf hh
    obtain ⟨H, e, hok, rfl, -, -⟩ := (C123_accepted_iff f h rest).mp hf
    obtain ⟨-, -, -, -, oa, -, ov⟩ := hok
    refine ⟨⟨['C', 'D', 'F'], show [0x43, 0x44, 0x46] = _ by decide, by decide⟩, ?_, ?_, ?_⟩
    · intro d hd
      have := hh.dims d hd
      obtain ⟨d, -, rfl⟩ := List.mem_map.mp hd
      exact plainName this
    · intro a ha
      have := hh.atts a ha
      obtain ⟨a, ha', rfl⟩ := List.mem_map.mp ha
      exact plainAttr (oa a ha') this
    · intro v hv
      obtain ⟨h1, h2⟩ := hh.vars v hv
      obtain ⟨v, hv', rfl⟩ := List.mem_map.mp hv
      refine ⟨plainName h1, fun a ha => ?_⟩
      have := h2 a ha
      obtain ⟨a, ha', rfl⟩ := List.mem_map.mp ha
      exact plainAttr ((ov v hv').2.2.2.2.1 a ha') this
  exact C192_header hs (key hf hh) (key hg hk) e

/-- Numbers shown as fractions. -/
def fraction : Fl → Text
  | .nan => ['N', 'a', 'N']
  | .ninf => ['-', 'i', 'n', 'f']
  | .pinf => ['i', 'n', 'f']
  | .fin q => decInt q.num ++ '/' :: dec q.den

theorem decInt_not {c : Char} (h1 : c ≠ '-') (h2 : c.isDigit = false) (i : Int) : c ∉ decInt i := by
  have hd : ∀ n, c ∉ dec n := fun n h => by rw [dec_digits n c h] at h2; cases h2
  unfold decInt
  split
  · simp [h1, hd]
  · exact hd _

theorem fraction_inj {a b : Fl} (h : fraction a = fraction b) : a = b := by
  have hn : ∀ q : Rat, '/' ∈ fraction (.fin q) := fun q => by simp [fraction]
  cases a <;> cases b <;> first
    | rfl
    | exact absurd h (by decide)
    | exact absurd (h ▸ hn _) (by decide)
    | exact absurd (h.symm ▸ hn _) (by decide)
    | skip
  rename_i p q
  obtain ⟨e1, e2⟩ := upToBreak (decInt_not (by decide) (by decide) _) (decInt_not (by decide) (by decide) _) h
  rw [Rat.ext (decInt_inj e1) (dec_inj e2)]

theorem fraction_not {c : Char} (h1 : c ∉ "-/NaNinf".toList) (h2 : c.isDigit = false) (v : Fl) : c ∉ fraction v := by
  have hd : ∀ n, c ∉ dec n := fun n h => by rw [dec_digits n c h] at h2; cases h2
  have e : "-/NaNinf".toList = ['-', '/', 'N', 'a', 'N', 'i', 'n', 'f'] := rfl
  rw [e] at h1
  simp only [List.mem_cons, List.not_mem_nil, or_false, not_or] at h1
  have := decInt_not h1.1 h2
  cases v <;> simp [fraction, h1, hd, this]

/-- There are such texts. -/
theorem fraction_faithful : Faithful ⟨fraction, fraction⟩ := by
  have hw : ∀ v, fraction v ≠ [] ∧ ' ' ∉ fraction v := fun v =>
    ⟨by cases v <;> simp [fraction], fraction_not (by decide) (by decide) v⟩
  have hl : ∀ v, '\n' ∉ fraction v := fun v => fraction_not (by decide) (by decide) v
  exact ⟨fun v => ⟨hw v, hw v⟩, fun _ _ h => fraction_inj h, fun _ _ h => fraction_inj h, fun v => ⟨hl v, hl v⟩⟩

/-- A file with one dimension `t` and an attribute `r` of the two values 1 and 2: it is read, it has no line breaks, and no other such
file has the text of its header. -/
example : ∃ h rest, readHeader ([0x43, 0x44, 0x46, 2] ++ [0, 0, 0, 0] ++ [0, 0, 0, 10] ++ [0, 0, 0, 1] ++ [0, 0, 0, 1, 0x74, 0, 0, 0] ++
      [0, 0, 0, 7] ++ [0, 0, 0, 12] ++ [0, 0, 0, 1] ++ [0, 0, 0, 1, 0x72, 0, 0, 0] ++ [0, 0, 0, 3] ++ [0, 0, 0, 2] ++ [0, 1, 0, 2] ++
      [0, 0, 0, 0, 0, 0, 0, 0]) = .ok (h, rest) ∧ NoBreaks h ∧ h.dimList = [⟨[0x74], 7⟩] ∧
    ∀ g k r, readHeader g = .ok (k, r) → NoBreaks k → k.text ⟨fraction, fraction⟩ = h.text ⟨fraction, fraction⟩ →
      k.attList = [⟨[0x72], .ncShort, .shorts [1, 2]⟩] := by
  have e : readHeader ([0x43, 0x44, 0x46, 2] ++ [0, 0, 0, 0] ++ [0, 0, 0, 10] ++ [0, 0, 0, 1] ++ [0, 0, 0, 1, 0x74, 0, 0, 0] ++
      [0, 0, 0, 7] ++ [0, 0, 0, 12] ++ [0, 0, 0, 1] ++ [0, 0, 0, 1, 0x72, 0, 0, 0] ++ [0, 0, 0, 3] ++ [0, 0, 0, 2] ++ [0, 1, 0, 2] ++
      [0, 0, 0, 0, 0, 0, 0, 0]) =
      .ok (⟨⟨netcdfMagic, 2⟩, 0, [⟨[0x74], 7⟩], [⟨[0x72], .ncShort, .shorts [1, 2]⟩], []⟩, []) := by decide +kernel
  have hn : NoBreaks ⟨⟨netcdfMagic, 2⟩, 0, [⟨[0x74], 7⟩], [⟨[0x72], .ncShort, .shorts [1, 2]⟩], []⟩ :=
    ⟨by simp, by simp [NoBreaksIn], by simp⟩
  refine ⟨_, _, e, hn, rfl, fun g k r hg hk h => ?_⟩
  rw [C192_files fraction_faithful hg e hk hn h]

end Verif.Props
