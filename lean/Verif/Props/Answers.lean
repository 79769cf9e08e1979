import Verif.Lemmas.Answers
import Verif.Props.Catalogue
import Verif.Props.Downloads

/-!
# C144-C148: the answers of the web service
-/

namespace Verif.Props

open Verif Spec
open Verif.Swiss (Value Net Web Entry Asset)
open Verif.Swiss.Answer

/-! ## C144: which answers are understood -/

theorem asset_iff {v : Value} {a : Asset} : asset v = .ok a ↔ IsAsset v a := by
  unfold IsAsset
  rw [← fields_iff (by decide)]
  unfold asset
  simp only [Res.bind_eq_ok, text_iff, Res.ok.injEq]
  constructor
  · rintro ⟨fs, h, id, h1, title, h2, href, h3, rfl⟩
    exact ⟨fs, h, .cons h1 (.cons h2 (.cons h3 .nil))⟩
  · rintro ⟨fs, h, hf⟩
    simp only [List.forall₂_cons, List.Forall₂.nil, and_true] at hf
    obtain ⟨h1, h2, h3⟩ := hf
    exact ⟨fs, h, _, h1, _, h2, _, h3, rfl⟩

theorem link_iff {v : Value} {l : Link} : link v = .ok l ↔ IsLink v l := by
  unfold IsLink
  rw [← fields_iff (by decide)]
  unfold link
  simp only [Res.bind_eq_ok, text_iff, Res.ok.injEq]
  constructor
  · rintro ⟨fs, h, title, h2, href, h3, rfl⟩
    exact ⟨fs, h, .cons h2 (.cons h3 .nil)⟩
  · rintro ⟨fs, h, hf⟩
    simp only [List.forall₂_cons, List.Forall₂.nil, and_true] at hf
    obtain ⟨h2, h3⟩ := hf
    exact ⟨fs, h, _, h2, _, h3, rfl⟩

theorem properties_iff {v : Value} {p : Properties} : properties v = .ok p ↔ IsProperties v p := by
  unfold IsProperties
  rw [← fields_iff (by decide)]
  unfold properties
  simp only [Res.bind_eq_ok, text_iff, Res.ok.injEq]
  constructor
  · rintro ⟨fs, h, a, h1, b, h2, c, h3, d, h4, e, h5, rfl⟩
    exact ⟨fs, h, .cons h1 (.cons h2 (.cons h3 (.cons h4 (.cons h5 .nil))))⟩
  · rintro ⟨fs, h, hf⟩
    simp only [List.forall₂_cons, List.Forall₂.nil, and_true] at hf
    obtain ⟨h1, h2, h3, h4, h5⟩ := hf
    exact ⟨fs, h, _, h1, _, h2, _, h3, _, h4, _, h5, rfl⟩

theorem links_eq {v : Value} {m : List (Text × Link)} : links v = .ok m ↔
    AllFit v ∧ ∃ ms all, v = .obj ms ∧ List.Forall₂ (fun x y => x.1 = y.1 ∧ IsLink x.2 y.2) ms all ∧
      m = all.foldl insert [] := by
  have hm : ∀ (ms : List (Text × Value)) (all : List (Text × Link)),
      (Res.mapM (fun m => do
        let x ← link m.2
        .ok (m.1, x)) ms = .ok all) ↔ List.Forall₂ (fun x y => x.1 = y.1 ∧ IsLink x.2 y.2) ms all := by
    intro ms all
    rw [Res.mapM_ok_iff]
    constructor <;> intro h <;> refine h.imp fun x y hxy => ?_
    · simp only [Res.bind_eq_ok, link_iff, Res.ok.injEq] at hxy
      obtain ⟨z, h1, rfl⟩ := hxy
      exact ⟨rfl, h1⟩
    · simp only [Res.bind_eq_ok, link_iff, Res.ok.injEq]
      exact ⟨y.2, hxy.2, by rw [hxy.1]⟩
  cases v with
  | obj ms =>
    have hf : AllFit (.obj ms) ↔ Value.membersFit ms = true := by
      rw [← fits_iff]
      unfold Value.fits
      rfl
    show (if Value.membersFit ms then _ else _) = _ ↔ _
    rw [hf]
    by_cases h : Value.membersFit ms = true
    · rw [if_pos h]
      simp only [Res.bind_eq_ok, hm, Res.ok.injEq, h, true_and]
      constructor
      · rintro ⟨all, h1, rfl⟩; exact ⟨ms, all, rfl, h1, rfl⟩
      · rintro ⟨ms', all, e, h1, rfl⟩
        cases e
        exact ⟨all, h1, rfl⟩
    · rw [if_neg h]
      simp [h]
  | _ =>
    constructor
    · intro h; cases h
    · rintro ⟨_, ms, all, e, _⟩; cases e

theorem links_sound {v : Value} {m : List (Text × Link)} (h : links v = .ok m) : IsLinks v m := by
  obtain ⟨h1, ms, all, h2, h3, rfl⟩ := links_eq.mp h
  exact ⟨h1, ms, all, h2, h3, by simpa using foldl_lastWins all [] [] lastWins_nil⟩

theorem forall2_link {ms : List (Text × Value)} {all all' : List (Text × Link)}
    (h : List.Forall₂ (fun x y => x.1 = y.1 ∧ IsLink x.2 y.2) ms all)
    (h' : List.Forall₂ (fun x y => x.1 = y.1 ∧ IsLink x.2 y.2) ms all') : all = all' := by
  induction h generalizing all' with
  | nil => cases h'; rfl
  | cons h1 h2 ih =>
    cases h' with
    | cons h1' h2' =>
      rw [ih h2']
      have := (link_iff.mpr h1.2).symm.trans (link_iff.mpr h1'.2)
      congr 1
      exact Prod.ext (h1.1.symm.trans h1'.1) (Res.ok.inj this)

theorem links_complete {v : Value} {m : List (Text × Link)} (h : IsLinks v m) : ∃ m', links v = .ok m' ∧ m'.Perm m := by
  obtain ⟨h1, ms, all, h2, h3, h4⟩ := h
  refine ⟨all.foldl insert [], links_eq.mpr ⟨h1, ms, all, h2, h3, rfl⟩, ?_⟩
  exact LastWins.perm (by simpa using foldl_lastWins all [] [] lastWins_nil) h4

theorem feature_sound {v : Value} {f : Feature} (h : feature v = .ok f) : IsFeature v f := by
  unfold feature at h
  simp only [Res.bind_eq_ok, text_iff, Res.ok.injEq, properties_iff] at h
  obtain ⟨fs, h0, id, h1, p, h2, p', h3, a, h4, a', h5, rfl⟩ := h
  exact ⟨p, a, (fields_iff (by decide)).mp ⟨fs, h0, .cons h1 (.cons h2 (.cons h4 .nil))⟩, h3, links_sound h5⟩

theorem feature_complete {v : Value} {f : Feature} (h : IsFeature v f) : ∃ g, feature v = .ok g ∧ SameFeature g f := by
  obtain ⟨p, a, h0, h1, h2⟩ := h
  obtain ⟨fs, h0, hf⟩ := (fields_iff (by decide)).mpr h0
  simp only [List.forall₂_cons, List.Forall₂.nil, and_true] at hf
  obtain ⟨h3, h4, h5⟩ := hf
  obtain ⟨m, h6, h7⟩ := links_complete h2
  refine ⟨⟨f.id, f.properties, m⟩, ?_, rfl, rfl, h7⟩
  unfold feature
  simp only [Res.bind_eq_ok, text_iff, Res.ok.injEq, properties_iff]
  exact ⟨fs, h0, f.id, h3, p, h4, f.properties, h1, a, h5, m, h6, rfl⟩

/-- C144: the list of constant files is understood exactly if it has the form of such a list, and is taken over
unchanged. -/
theorem C144_assets (v : Value) (l : List Asset) : assets v = .ok l ↔ IsAssets v l := by
  unfold assets IsAssets
  simp only [Res.bind_eq_ok, vec_iff, asset_iff]
  constructor
  · rintro ⟨fs, h, x, h1, items, rfl, h2⟩
    exact ⟨items, (fields_iff (by decide)).mp ⟨fs, h, .cons h1 .nil⟩, h2⟩
  · rintro ⟨items, h, h2⟩
    obtain ⟨fs, h, hf⟩ := (fields_iff (by decide)).mpr h
    simp only [List.forall₂_cons, List.Forall₂.nil, and_true] at hf
    have h1 := hf
    exact ⟨fs, h, _, h1, items, rfl, h2⟩

/-- C144: what is understood of the answer to a search is what it says. -/
theorem C144_search_sound (v : Value) (fs : List Feature) (h : response v = .ok fs) : IsResponse v fs := by
  unfold response at h
  simp only [Res.bind_eq_ok, text_iff, vec_iff] at h
  obtain ⟨ms, h0, time, h1, x, h2, items, rfl, h3⟩ := h
  exact ⟨time, items, (fields_iff (by decide)).mp ⟨ms, h0, .cons h1 (.cons h2 .nil)⟩, h3.imp fun _ _ => feature_sound⟩

/-- C144: every answer of the right form to a search is understood. -/
theorem C144_search_complete (v : Value) (fs : List Feature) (h : IsResponse v fs) :
    ∃ gs, response v = .ok gs ∧ List.Forall₂ SameFeature gs fs := by
  obtain ⟨time, items, hh, h3⟩ := h
  obtain ⟨ms, h0, hf⟩ := (fields_iff (by decide)).mpr hh
  simp only [List.forall₂_cons, List.Forall₂.nil, and_true] at hf
  obtain ⟨h1, h2⟩ := hf
  have : ∃ gs, List.Forall₂ (fun x y => feature x = .ok y) items gs ∧ List.Forall₂ SameFeature gs fs := by
    clear hh h0 h1 h2
    induction h3 with
    | nil => exact ⟨[], .nil, .nil⟩
    | cons h _ ih =>
      obtain ⟨gs, h4, h5⟩ := ih
      obtain ⟨g, h6, h7⟩ := feature_complete h
      exact ⟨g :: gs, .cons h6 h4, .cons h7 h5⟩
  obtain ⟨gs, h4, h5⟩ := this
  refine ⟨gs, ?_, h5⟩
  unfold response
  simp only [Res.bind_eq_ok, text_iff, vec_iff]
  exact ⟨ms, h0, time, h1, _, h2, items, rfl, h4⟩

theorem fields_no_panic (keys : List Text) (v : Value) : fields keys v ≠ .panic := by
  cases v with
  | obj ms => rw [fields_obj]; split <;> simp
  | arr l => rw [fields_arr]; split <;> simp
  | _ => simp [fields]

theorem bind_safe {α β : Type} {r : Res α} {f : α → Res β} (h : r ≠ .panic) (hf : ∀ a, f a ≠ .panic) :
    (r >>= f) ≠ .panic := by
  cases r with
  | ok a => exact hf a
  | err => simp [Bind.bind, Res.bind]
  | panic => exact absurd rfl h

theorem field_no_panic (fs : List (Text × Value)) (k : Text) : field fs k ≠ .panic := by
  unfold field
  cases (fs.find? fun m => m.1 == k).map Prod.snd <;> simp [Res.okOr]

theorem text_no_panic (fs : List (Text × Value)) (k : Text) : text fs k ≠ .panic :=
  bind_safe (field_no_panic fs k) fun v => by cases v <;> simp [string]

theorem vec_no_panic {α : Type} {f : Value → Res α} (hf : ∀ v, f v ≠ .panic) (v : Value) : vec f v ≠ .panic := by
  cases v with
  | arr l => exact mapM_no_panic fun x _ => hf x
  | _ => simp [vec]

/-- C144: no answer makes the program panic. -/
theorem C144_no_panic (v : Value) : assets v ≠ .panic ∧ response v ≠ .panic := by
  have ok : ∀ {α : Type} (a : α), (Res.ok a) ≠ .panic := by simp
  constructor
  · refine bind_safe (fields_no_panic _ _) fun fs => bind_safe (field_no_panic _ _) fun l => vec_no_panic (fun v => ?_) _
    exact bind_safe (fields_no_panic _ _) fun fs => bind_safe (text_no_panic _ _) fun _ =>
      bind_safe (text_no_panic _ _) fun _ => bind_safe (text_no_panic _ _) fun _ => ok _
  · refine bind_safe (fields_no_panic _ _) fun fs => bind_safe (text_no_panic _ _) fun _ =>
      bind_safe (field_no_panic _ _) fun l => vec_no_panic (fun v => ?_) _
    refine bind_safe (fields_no_panic _ _) fun fs => bind_safe (text_no_panic _ _) fun _ =>
      bind_safe (field_no_panic _ _) fun p => bind_safe ?_ fun _ => bind_safe (field_no_panic _ _) fun a =>
      bind_safe ?_ fun _ => ok _
    · exact bind_safe (fields_no_panic _ _) fun fs => bind_safe (text_no_panic _ _) fun _ =>
        bind_safe (text_no_panic _ _) fun _ => bind_safe (text_no_panic _ _) fun _ =>
        bind_safe (text_no_panic _ _) fun _ => bind_safe (text_no_panic _ _) fun _ => ok _
    · cases a with
      | obj ms =>
        show (if Value.membersFit ms then _ else _) ≠ _
        split
        · refine bind_safe (mapM_no_panic fun m _ => ?_) fun _ => ok _
          exact bind_safe (bind_safe (fields_no_panic _ _) fun fs => bind_safe (text_no_panic _ _) fun _ =>
            bind_safe (text_no_panic _ _) fun _ => ok _) fun _ => ok _
        · simp
      | _ => simp [links]

/-! ## C145: other members and the order of members do not matter -/

/-- Two objects have the same members with the given names, in any order. -/
def Agree (keys : List Text) (ms ms' : List (Text × Value)) : Prop :=
  ∀ k ∈ keys, (ms.filter fun m => m.1 == k).Perm (ms'.filter fun m => m.1 == k)

theorem nodup_iff_filter {keys : List Text} {ms : List (Text × Value)} :
    ((ms.filter fun m => decide (m.1 ∈ keys)).map Prod.fst).Nodup ↔
      ∀ k ∈ keys, (ms.filter fun m => m.1 == k).length ≤ 1 := by
  rw [List.nodup_iff_count_le_one]
  have e : ∀ k, ((fun y => y == k) ∘ Prod.fst : Text × Value → Bool) = fun m => m.1 == k := fun _ => rfl
  constructor
  · intro h k hk
    have := h k
    rw [List.count, List.countP_map, e, List.countP_eq_length_filter, filter_filter_key hk] at this
    exact this
  · intro h k
    by_cases hk : k ∈ keys
    · rw [List.count, List.countP_map, e, List.countP_eq_length_filter, filter_filter_key hk]
      exact h k hk
    · rw [List.count_eq_zero_of_not_mem]
      · omega
      · intro hm
        obtain ⟨m, hm', rfl⟩ := List.mem_map.mp hm
        rw [List.mem_filter] at hm'
        exact hk (by simpa using hm'.2)

theorem fields_agree {keys : List Text} {ms ms' : List (Text × Value)} (h : Agree keys ms ms') :
    (fields keys (.obj ms) = .err ∧ fields keys (.obj ms') = .err) ∨
    ∃ fs fs', fields keys (.obj ms) = .ok fs ∧ fields keys (.obj ms') = .ok fs' ∧ ∀ k ∈ keys, field fs k = field fs' k := by
  rw [fields_obj, fields_obj]
  have hiff : (∀ k ∈ keys, (ms.filter fun m => m.1 == k).length ≤ 1) ↔
      ∀ k ∈ keys, (ms'.filter fun m => m.1 == k).length ≤ 1 :=
    ⟨fun hn k hk => (h k hk).length_eq ▸ hn k hk, fun hn k hk => (h k hk).length_eq.symm ▸ hn k hk⟩
  by_cases hn : ∀ k ∈ keys, (ms.filter fun m => m.1 == k).length ≤ 1
  · rw [if_pos (nodup_iff_filter.mpr hn), if_pos (nodup_iff_filter.mpr (hiff.mp hn))]
    refine .inr ⟨_, _, rfl, rfl, fun k hk => ?_⟩
    have e : (ms.filter fun m => m.1 == k) = ms'.filter fun m => m.1 == k := by
      have hp := h k hk
      have hl := hn k hk
      revert hp hl
      generalize (ms.filter fun m => m.1 == k) = a
      generalize (ms'.filter fun m => m.1 == k) = b
      intro hp hl
      match a, hl with
      | [], _ => exact (List.Perm.nil_eq hp)
      | [x], _ => exact List.singleton_perm.mp hp
    unfold field
    rw [← List.head?_filter, ← List.head?_filter, filter_filter_key hk, filter_filter_key hk, e]
  · rw [if_neg (hn ∘ nodup_iff_filter.mp), if_neg (hn ∘ hiff.mpr ∘ nodup_iff_filter.mp)]
    exact .inl ⟨rfl, rfl⟩

theorem decode_agree {α : Type} {keys : List Text} {ms ms' : List (Text × Value)} (h : Agree keys ms ms')
    {f : List (Text × Value) → Res α}
    (hf : ∀ fs fs', (∀ k ∈ keys, field fs k = field fs' k) → f fs = f fs') :
    (fields keys (.obj ms) >>= f) = (fields keys (.obj ms') >>= f) := by
  rcases fields_agree h with ⟨h1, h2⟩ | ⟨fs, fs', h1, h2, h3⟩
  · rw [h1, h2]
  · rw [h1, h2]
    exact hf fs fs' h3

/-- C145: only the members that are looked for matter, not their order, in the description of a constant file, ... -/
theorem C145_asset (ms ms' : List (Text × Value)) (h : Agree ["id".toList, "title".toList, "href".toList] ms ms') :
    asset (.obj ms) = asset (.obj ms') := by
  refine decode_agree h fun fs fs' he => ?_
  unfold text
  rw [he _ (by simp), he _ (by simp), he _ (by simp)]

/-- C145: ... in the list of constant files, ... -/
theorem C145_assets (ms ms' : List (Text × Value)) (h : Agree ["assets".toList] ms ms') :
    assets (.obj ms) = assets (.obj ms') := by
  refine decode_agree h fun fs fs' he => ?_
  rw [he _ (by simp)]

/-- C145: ... in a link, ... -/
theorem C145_link (ms ms' : List (Text × Value)) (h : Agree ["title".toList, "href".toList] ms ms') :
    link (.obj ms) = link (.obj ms') := by
  refine decode_agree h fun fs fs' he => ?_
  unfold text
  rw [he _ (by simp), he _ (by simp)]

/-- C145: ... in the properties of a file, ... -/
theorem C145_properties (ms ms' : List (Text × Value))
    (h : Agree ["datetime".toList, "title".toList, "forecast:reference_datetime".toList, "forecast:horizon".toList,
      "forecast:variable".toList] ms ms') : properties (.obj ms) = properties (.obj ms') := by
  refine decode_agree h fun fs fs' he => ?_
  unfold text
  rw [he _ (by simp), he _ (by simp), he _ (by simp), he _ (by simp), he _ (by simp)]

/-- C145: ... in the description of a file, ... -/
theorem C145_feature (ms ms' : List (Text × Value)) (h : Agree ["id".toList, "properties".toList, "assets".toList] ms ms') :
    feature (.obj ms) = feature (.obj ms') := by
  refine decode_agree h fun fs fs' he => ?_
  unfold text
  rw [he _ (by simp), he _ (by simp), he _ (by simp)]

/-- C145: ... and in the answer to a search. -/
theorem C145_response (ms ms' : List (Text × Value)) (h : Agree ["timeStamp".toList, "features".toList] ms ms') :
    response (.obj ms) = response (.obj ms') := by
  refine decode_agree h fun fs fs' he => ?_
  unfold text
  rw [he _ (by simp), he _ (by simp)]

/-- C145: the order of the named links of a file does not matter. -/
theorem C145_links (ms ms' : List (Text × Value)) (hp : ms.Perm ms') (hn : (ms.map Prod.fst).Nodup)
    (l : List (Text × Link)) (h : links (.obj ms) = .ok l) : ∃ l', links (.obj ms') = .ok l' ∧ l'.Perm l := by
  obtain ⟨hf, ms0, all, e, h2, h3⟩ := links_sound h
  cases e
  cases hf with
  | obj _ hf =>
    obtain ⟨all', h4, h5⟩ : ∃ all', all.Perm all' ∧ List.Forall₂ (fun x y => x.1 = y.1 ∧ IsLink x.2 y.2) ms' all' := by
      obtain ⟨all', h4, h5⟩ := List.perm_comp_forall₂ hp.symm h2
      exact ⟨all', h5.symm, h4⟩
    have keys : ∀ {ms all}, List.Forall₂ (fun (x : Text × Value) (y : Text × Link) => x.1 = y.1 ∧ IsLink x.2 y.2) ms all →
        ms.map Prod.fst = all.map Prod.fst := by
      intro ms all h
      induction h with
      | nil => rfl
      | cons h1 _ ih => rw [List.map_cons, List.map_cons, h1.1, ih]
    have hall : (all.map Prod.fst).Nodup := keys h2 ▸ hn
    have mem : ∀ {all m : List (Text × Link)}, (all.map Prod.fst).Nodup → LastWins all m → m.Perm all := by
      intro all m hn h
      rw [List.perm_ext_iff_of_nodup h.1.of_map hn.of_map]
      intro x
      rw [h.2 x]
      constructor
      · rintro ⟨a, b, rfl, _⟩; simp
      · intro hx
        obtain ⟨a, b, rfl⟩ := List.append_of_mem hx
        refine ⟨a, b, rfl, ?_⟩
        rw [List.map_append, List.map_cons, List.nodup_append] at hn
        exact (List.nodup_cons.mp hn.2.1).1
    have e1 := mem hall h3
    have hall' : (all'.map Prod.fst).Nodup := (h4.map Prod.fst).nodup_iff.mp hall
    have h6 : links (.obj ms') = .ok (all'.foldl insert []) :=
      links_eq.mpr ⟨.obj _ fun m hm => hf m (hp.mem_iff.mpr hm), ms', all', rfl, h5, rfl⟩
    refine ⟨_, h6, ?_⟩
    have : LastWins all' (all'.foldl insert []) := by simpa using foldl_lastWins all' [] [] lastWins_nil
    exact (mem hall' this).trans (h4.symm.trans e1.symm)

/-- A list of one file, with members that are not looked for. -/
def assetsExample : Value :=
  .obj [("links".toList, .arr []), ("assets".toList, .arr [.obj [("href".toList, .str "u".toList),
    ("id".toList, .str "i".toList), ("file:size".toList, .num true), ("title".toList, .str [])]])]

example : IsAssets assetsExample [⟨"i".toList, [], "u".toList⟩] := (C144_assets _ _).mp rfl

/-- A second value for a member is an error, also if it is the same value. -/
example : ¬ ∃ l, IsAssets (.obj [("assets".toList, .arr []), ("assets".toList, .arr [])]) l := by
  rintro ⟨l, h⟩
  have := (C144_assets _ _).mpr h
  cases this

/-- The hypothesis of C145 can be met. -/
example : Agree ["title".toList, "href".toList] [("title".toList, .str []), ("type".toList, .null), ("href".toList, .str [])]
    [("href".toList, .str []), ("title".toList, .str []), ("size".toList, .num false)] := by
  intro k hk
  simp only [List.mem_cons, List.not_mem_nil, or_false] at hk
  rcases hk with rfl | rfl <;> exact .refl _

end Verif.Props
