import Verif.Eustace.Format.Verify

/-! C123: variables made from templates. -/
namespace Verif.Eustace.Format
open Verif

/-- Pieces of a template: text, or the name of a field. -/
inductive Piece where
  | text (s : List Char)
  | field (s : List Char)

/-- How a template is written: fields are in brackets. -/
def render : List Piece → List Char
  | [] => []
  | .text s :: t => s ++ render t
  | .field s :: t => '{' :: (s ++ '}' :: render t)

/-- The fields of a template. -/
def fields : List Piece → List (List Char)
  | [] => []
  | .text _ :: t => fields t
  | .field s :: t => s :: fields t

/-- The text with the fields filled in. -/
def fill (value : List Char → List Char) : List Piece → List Char
  | [] => []
  | .text s :: t => s ++ fill value t
  | .field s :: t => value s ++ fill value t

/-- Texts are without brackets, and fields are names. -/
def WellFormed (l : List Piece) : Prop := ∀ p ∈ l, match p with
  | .text s => '{' ∉ s ∧ '}' ∉ s
  | .field s => s ≠ [] ∧ ∀ c ∈ s, wordChar c = true

theorem WellFormed.tail {p : Piece} {l : List Piece} (h : WellFormed (p :: l)) : WellFormed l :=
  fun q hq => h q (List.mem_cons_of_mem _ hq)

theorem wordChar_ne {c : Char} (h : wordChar c = true) : c ≠ '{' ∧ c ≠ '}' := by
  constructor <;> (rintro rfl; revert h; decide)

theorem findFields_text : ∀ {s : List Char}, '{' ∉ s → ∀ t, findFields none (s ++ t) = findFields none t
  | [], _, _ => rfl
  | c :: s, h, t => by
    rw [List.cons_append, findFields, if_neg (by rintro rfl; exact h List.mem_cons_self)]
    exact findFields_text (fun hm => h (List.mem_cons_of_mem _ hm)) t

theorem findFields_word : ∀ {s : List Char}, (∀ c ∈ s, wordChar c = true) → ∀ acc t,
    findFields (some acc) (s ++ t) = findFields (some (s.reverse ++ acc)) t
  | [], _, _, _ => rfl
  | c :: s, h, acc, t => by
    have hc := h c List.mem_cons_self
    rw [List.cons_append, findFields, if_neg (wordChar_ne hc).1, if_neg (wordChar_ne hc).2, if_pos hc,
      findFields_word (fun d hd => h d (List.mem_cons_of_mem _ hd))]
    simp

/-- C123: the fields found in a template are those it was written with. -/
theorem c123_fields : ∀ {l : List Piece}, WellFormed l → findFields none (render l) = fields l
  | [], _ => rfl
  | .text s :: t, h => by
    have hs := h _ List.mem_cons_self
    rw [render, findFields_text hs.1, c123_fields h.tail, fields]
  | .field s :: t, h => by
    have hs := h _ List.mem_cons_self
    dsimp only at hs
    rw [render, findFields, if_pos rfl, findFields_word hs.2, findFields, if_neg (by decide), if_pos rfl,
      if_neg (by simpa using hs.1), c123_fields h.tail, fields]
    simp

theorem formatText_text (k : Keywords) : ∀ {s : List Char}, '{' ∉ s → '}' ∉ s → ∀ {t r}, formatText k none t = .ok r →
    formatText k none (s ++ t) = .ok (s ++ r)
  | [], _, _, _, _, h => h
  | c :: s, h1, h2, t, r, h => by
    rw [List.cons_append, formatText, if_neg (by rintro rfl; exact h1 List.mem_cons_self),
      if_neg (by rintro rfl; exact h2 List.mem_cons_self),
      formatText_text k (fun hm => h1 (List.mem_cons_of_mem _ hm)) (fun hm => h2 (List.mem_cons_of_mem _ hm)) h]
    rfl

theorem formatText_word (k : Keywords) : ∀ {s : List Char}, '}' ∉ s → ∀ acc t,
    formatText k (some acc) (s ++ t) = formatText k (some (s.reverse ++ acc)) t
  | [], _, _, _ => rfl
  | c :: s, h, acc, t => by
    rw [List.cons_append, formatText, if_neg (by rintro rfl; exact h List.mem_cons_self),
      formatText_word k (fun hm => h (List.mem_cons_of_mem _ hm))]
    simp

theorem word_no_bracket {s : List Char} (h : ∀ c ∈ s, wordChar c = true) : '}' ∉ s :=
  fun hm => (wordChar_ne (h _ hm)).2 rfl

/-- C123: the fields of a template are replaced by the values given, and nothing else changes. -/
theorem c123_filled {k : Keywords} {value : List Char → List Char} : ∀ {l : List Piece}, WellFormed l →
    (∀ s ∈ fields l, textOf k s = some (value s)) → formatText k none (render l) = .ok (fill value l)
  | [], _, _ => rfl
  | .text s :: t, h, hv => by
    have hs := h _ List.mem_cons_self
    exact formatText_text k hs.1 hs.2 (c123_filled h.tail hv)
  | .field s :: t, h, hv => by
    have hs := h _ List.mem_cons_self
    dsimp only at hs
    rw [render, formatText, if_pos rfl, formatText_word k (word_no_bracket hs.2), formatText, if_pos rfl]
    have e : (s.reverse ++ []).reverse = s := by simp
    rw [e, hv s List.mem_cons_self, c123_filled h.tail fun q hq => hv q (List.mem_cons_of_mem _ hq)]
    rfl

/-- C123: a field without a value is refused. -/
theorem c123_missing {k : Keywords} : ∀ {l : List Piece}, WellFormed l → (∃ s ∈ fields l, textOf k s = none) →
    ∃ e, formatText k none (render l) = .error e
  | [], _, ⟨_, hs, _⟩ => by cases hs
  | .text s :: t, h, hm => by
    have hs := h _ List.mem_cons_self
    obtain ⟨e, he⟩ := c123_missing h.tail hm
    refine ⟨e, ?_⟩
    have : ∀ {s : List Char}, '{' ∉ s → '}' ∉ s → formatText k none (s ++ render t) = .error e := by
      intro s h1 h2
      induction s with
      | nil => exact he
      | cons c s ih =>
        rw [List.cons_append, formatText, if_neg (by rintro rfl; exact h1 List.mem_cons_self),
          if_neg (by rintro rfl; exact h2 List.mem_cons_self),
          ih (fun hm => h1 (List.mem_cons_of_mem _ hm)) (fun hm => h2 (List.mem_cons_of_mem _ hm))]
    exact this hs.1 hs.2
  | .field s :: t, h, hm => by
    have hs := h _ List.mem_cons_self
    dsimp only at hs
    rw [render, formatText, if_pos rfl, formatText_word k (word_no_bracket hs.2), formatText, if_pos rfl]
    have e : (s.reverse ++ []).reverse = s := by simp
    rw [e]
    cases ht : textOf k s with
    | none => exact ⟨_, rfl⟩
    | some r =>
      obtain ⟨q, hq, hn⟩ := hm
      rcases List.mem_cons.1 hq with rfl | hq
      · rw [ht] at hn; cases hn
      · obtain ⟨e', he'⟩ := c123_missing h.tail ⟨q, hq, hn⟩
        exact ⟨e', by rw [he']⟩

/-- Text with a capital first letter; texts of one letter are left as they are. -/
def Capitalised (s r : List Char) : Prop :=
  (s.length ≤ 1 ∧ r = s) ∨ ∃ c t, s = c :: t ∧ t ≠ [] ∧ r = c.toUpper :: t

theorem capitalise_spec (s : List Char) : Capitalised s (capitalise s) := by
  rcases s with _ | ⟨c, _ | ⟨d, t⟩⟩
  · exact Or.inl ⟨by simp, rfl⟩
  · exact Or.inl ⟨by simp, rfl⟩
  · exact Or.inr ⟨c, d :: t, rfl, by simp, rfl⟩

/-- C123: the long name of a variable is the template of its long name filled in, with a capital first letter. -/
theorem c123_long_name {base : Template} {l : List Piece} (hb : base.longNameTemplate = some (render l)) (hl : WellFormed l)
    {name : String} {k : Keywords} {v : OutVar} (h : fromTemplate base name k = .ok v) {value : List Char → List Char}
    (hv : ∀ s ∈ fields l, textOf k s = some (value s)) : ∃ r, v.longName = some r ∧ Capitalised (fill value l) r := by
  have := fromTemplate_longName h
  unfold longNameOf at this
  rw [hb] at this
  dsimp only at this
  rw [c123_filled hl hv] at this
  injection this with this
  exact ⟨_, this.symm, capitalise_spec _⟩

theorem get_of_mem {key : String} {a : Option AttrValue} : ∀ {k : Keywords}, (k.map Prod.fst).Nodup → (key, a) ∈ k →
    k.get key = a
  | [], _, h => by cases h
  | (b, v) :: t, hn, h => by
    rw [List.map_cons, List.nodup_cons] at hn
    rw [Keywords.get]
    rcases List.mem_cons.1 h with e | h
    · injection e with e1 e2
      rw [if_pos e1.symm, e2]
    · rw [if_neg (fun e => hn.1 (List.mem_map.2 ⟨_, h, e.symm⟩))]
      exact get_of_mem hn.2 h

/-- C123: a variable has the name it is given, the type and the fill value of its template, every keyword argument not
used in the long name as metadata, and the metadata of the template otherwise. -/
theorem c123_inherits {base : Template} {name : String} {k : Keywords} {v : OutVar} (hk : (k.map Prod.fst).Nodup)
    (h : fromTemplate base name k = .ok v) :
    v.name = name ∧ v.dtype = base.dtype ∧ v.fill = base.fill ∧
    (∀ key a, (key, a) ∈ k → key.toList ∉ base.keywords → key ≠ "long_name" → v.metadata key = a) ∧
    ∀ key, key ≠ "long_name" → (∀ a, (key, a) ∈ k → key.toList ∈ base.keywords) → v.metadata key = base.members key := by
  obtain ⟨h1, h2, h3, h4⟩ := fromTemplate_eq h
  refine ⟨h1, h2, h3, ?_, ?_⟩
  · intro key a ha hn hl
    rw [metadata_members _ hl, h4]
    dsimp only
    have hm : (key, a) ∈ unused base k := List.mem_filter.2 ⟨ha, by simpa using hn⟩
    rw [if_pos (List.any_eq_true.2 ⟨_, hm, by simp⟩)]
    exact get_of_mem (hk.sublist (List.Sublist.map _ List.filter_sublist)) hm
  · intro key hl hn
    rw [metadata_members _ hl, h4]
    dsimp only
    rw [if_neg]
    · rfl
    · intro hc
      obtain ⟨⟨b, a⟩, hb, e⟩ := List.any_eq_true.1 hc
      have e : b = key := by simpa using e
      subst e
      obtain ⟨hb1, hb2⟩ := List.mem_filter.1 hb
      have := hn a hb1
      simp [this] at hb2

/-- C123: a keyword argument which is neither used in the long name nor metadata is refused, and nothing else is if all
fields have values. -/
theorem c123_accepts {base : Template} {l : List Piece} (hb : base.longNameTemplate = some (render l)) (hl : WellFormed l)
    {name : String} {k : Keywords} {value : List Char → List Char} (hv : ∀ s ∈ fields l, textOf k s = some (value s)) :
    (∃ v, fromTemplate base name k = .ok v) ↔
      ∀ a ∈ k, a.1.toList ∈ fields l ∨ a.1 ∈ metadataKeywords := by
  have hkw : base.keywords = fields l := by
    unfold Template.keywords
    rw [hb]
    exact c123_fields hl
  have hn : longNameOf base k = .ok (some (capitalise (fill value l))) := by
    unfold longNameOf
    rw [hb]
    dsimp only
    rw [c123_filled hl hv]
  unfold fromTemplate
  rw [hn]
  dsimp only
  constructor
  · rintro ⟨v, h⟩ a ha
    by_cases hc : (unused base k).all (fun a => a.1 ∈ metadataKeywords) = true
    · by_cases hf : a.1.toList ∈ fields l
      · exact Or.inl hf
      · refine Or.inr ?_
        have := List.all_eq_true.1 hc a (List.mem_filter.2 ⟨ha, by rw [hkw]; simpa using hf⟩)
        simpa using this
    · rw [if_neg hc] at h
      cases h
  · intro h
    refine ⟨_, if_pos (List.all_eq_true.2 fun a ha => ?_)⟩
    obtain ⟨h1, h2⟩ := List.mem_filter.1 ha
    rw [hkw] at h2
    rcases h a h1 with h3 | h3
    · simp [h3] at h2
    · simpa using h3

/-! ### The definitions -/

/-- The word for the quantity a variable is of, going by its name. -/
def wordOf (name : String) : String :=
  if "tasmin".toList.isPrefixOf name.toList then "minimum"
  else if "tasmax".toList.isPrefixOf name.toList then "maximum"
  else "average"

/-- The cell method a variable is of, going by its name. -/
def methodOf (name : String) : String :=
  if "tasmin".toList.isPrefixOf name.toList then "time: minimum"
  else if "tasmax".toList.isPrefixOf name.toList then "time: maximum"
  else "time: mean"

/-- What is said about the quantity called `word`. -/
inductive Kind where
  | temperature | uncertainty | fraction | influence | ensemble | perturbation
  deriving DecidableEq

/-- The long name for a kind of variable. -/
def Kind.longName (word : String) : Kind → List Char
  | .temperature => word.toList ++ " daily surface air temperature".toList
  | .uncertainty => "Total uncertainty in ".toList ++ word.toList ++ " daily surface air temperature".toList
  | .fraction => "Climatology fraction for ".toList ++ word.toList ++ " daily surface air temperature".toList
  | .influence => "Observation influence for ".toList ++ word.toList ++ " daily surface air temperature".toList
  | .ensemble => word.toList ++ " daily surface air temperature ensemble".toList
  | .perturbation => word.toList ++ " daily surface air temperature".toList

/-- The smallest step between values of a kind of variable. -/
def Kind.step : Kind → ℚ
  | .temperature => 5 / 1000
  | .uncertainty => 1 / 1000
  | .fraction => 1 / 64000
  | .influence => 1 / 64000
  | .ensemble => 5 / 1000
  | .perturbation => 5 / 1000

/-- The value in the middle of the range of a kind of variable. -/
def Kind.middle : Kind → ℚ
  | .temperature => 27315 / 100
  | .uncertainty => 0
  | .fraction => 1 / 2
  | .influence => 1 / 2
  | .ensemble => 27315 / 100
  | .perturbation => 0

/-- The kinds of the variables of definitions.py, by name. -/
def kinds : List (String × Kind) :=
  [("tas", .temperature), ("tasmin", .temperature), ("tasmax", .temperature),
   ("tasuncertainty", .uncertainty), ("tasminuncertainty", .uncertainty), ("tasmaxuncertainty", .uncertainty),
   ("tasclimatologyfraction", .fraction), ("tasminclimatologyfraction", .fraction), ("tasmaxclimatologyfraction", .fraction),
   ("tasobservationinfluence", .influence), ("tasminobservationinfluence", .influence),
   ("tasmaxobservationinfluence", .influence),
   ("tasensemble", .ensemble), ("tasminensemble", .ensemble), ("tasmaxensemble", .ensemble),
   ("tas_perturbation", .perturbation), ("tasmin_perturbation", .perturbation), ("tasmax_perturbation", .perturbation)]

/-- The variable of the definitions with a name. -/
def Defined (name : String) (v : OutVar) : Prop :=
  ∃ d ∈ definitions, d.2.1 = name ∧ fromTemplate d.1 d.2.1 d.2.2 = .ok v

/-- Whether a variable can be made from a template. -/
def made (d : Template × String × Keywords) : Bool :=
  match fromTemplate d.1 d.2.1 d.2.2 with
  | .ok _ => true
  | .error _ => false

theorem made_iff (d : Template × String × Keywords) : made d = true ↔ ∃ v, fromTemplate d.1 d.2.1 d.2.2 = .ok v := by
  unfold made
  cases fromTemplate d.1 d.2.1 d.2.2 with
  | error e => simp
  | ok v => simp

/-- C123: every definition makes a variable, their names are distinct, and they are those of `kinds`. -/
theorem c123_definitions : (∀ d ∈ definitions, ∃ v, fromTemplate d.1 d.2.1 d.2.2 = .ok v) ∧
    (definitions.map fun d => d.2.1).Nodup ∧ (definitions.map fun d => d.2.1) = kinds.map Prod.fst := by
  refine ⟨fun d hd => (made_iff d).1 (List.all_eq_true.1 ?_ d hd), by decide +kernel, by decide +kernel⟩
  decide +kernel

/-- Definitions with the kinds of their variables. -/
def named : List ((Template × String × Keywords) × String × Kind) := definitions.zip kinds

theorem mem_named {d : Template × String × Keywords} (hd : d ∈ definitions) {kind : Kind} (hk : (d.2.1, kind) ∈ kinds) :
    ∃ e ∈ named, e.1 = d ∧ e.2 = (d.2.1, kind) := by
  obtain ⟨-, hn, he⟩ := c123_definitions
  obtain ⟨i, hi, e1⟩ := List.mem_iff_getElem.1 hd
  obtain ⟨j, hj, e2⟩ := List.mem_iff_getElem.1 hk
  have hl : definitions.length = kinds.length := by simpa using congrArg List.length he
  have h1 : (definitions.map fun d => d.2.1)[i]'(by simpa using hi) = d.2.1 := by rw [List.getElem_map, e1]
  have h2 : (definitions.map fun d => d.2.1)[j]'(by simpa [hl] using hj) = d.2.1 := by
    have : (kinds.map Prod.fst)[j]'(by simpa using hj) = d.2.1 := by rw [List.getElem_map, e2]
    rw [← this]
    congr 1
  have hij : i = j := (List.Nodup.getElem_inj_iff hn).1 (h1.trans h2.symm)
  subst hij
  refine ⟨(d, d.2.1, kind), ?_, rfl, rfl⟩
  refine List.mem_iff_getElem.2 ⟨i, by simp [named, hi, hj], ?_⟩
  simp only [named, List.getElem_zip, e1, e2]

/-- Metadata of the variable made by a definition. -/
def metadataOf (d : Template × String × Keywords) (key : String) : Option AttrValue :=
  match fromTemplate d.1 d.2.1 d.2.2 with
  | .ok v => v.metadata key
  | .error _ => none

theorem metadataOf_eq {d : Template × String × Keywords} {v : OutVar} (h : fromTemplate d.1 d.2.1 d.2.2 = .ok v)
    (key : String) : metadataOf d key = v.metadata key := by
  unfold metadataOf
  rw [h]

/-- C123: the variables of the definitions are 16-bit integers, with the step and the middle of the range of their
kind. -/
theorem c123_packing {name : String} {kind : Kind} (hk : (name, kind) ∈ kinds) {v : OutVar} (h : Defined name v) :
    v.name = name ∧ v.dtype = .int16 ∧ v.fill = some (-32768) ∧ v.metadata "scale_factor" = some (.number kind.step) ∧
      v.metadata "add_offset" = some (.number kind.middle) := by
  obtain ⟨d, hd, rfl, hv⟩ := h
  obtain ⟨e, he, rfl, h2⟩ := mem_named hd hk
  obtain ⟨h3, h4, h5, -⟩ := fromTemplate_eq hv
  have : ∀ e ∈ named, e.1.1.dtype = .int16 ∧ e.1.1.fill = some (-32768) ∧
      metadataOf e.1 "scale_factor" = some (.number e.2.2.step) ∧
      metadataOf e.1 "add_offset" = some (.number e.2.2.middle) := by decide +kernel
  obtain ⟨h6, h7, h8, h9⟩ := this e he
  rw [h2] at h8 h9
  exact ⟨h3, h4.trans h6, h5.trans h7, (metadataOf_eq hv _).symm.trans h8, (metadataOf_eq hv _).symm.trans h9⟩

/-- C123, in part: the long names of the definitions name the quantity of the variable, and the cell methods, where there
are any, are those of the quantity.  This is proved for all but three of the eighteen definitions; it is false for those
(`c123_quantity_violated`). -/
theorem c123_quantity_partial {name : String} {kind : Kind} (hk : (name, kind) ∈ kinds)
    (hx : name ∉ ["tasminuncertainty", "tasmin_perturbation", "tasmax_perturbation"]) {v : OutVar} (h : Defined name v) :
    (∃ r, v.longName = some r ∧ Capitalised (kind.longName (wordOf name)) r) ∧
      ∀ m, v.metadata "cell_methods" = some m → m = .text (methodOf name) := by
  obtain ⟨d, hd, rfl, hv⟩ := h
  obtain ⟨e, he, rfl, h2⟩ := mem_named hd hk
  have : ∀ e ∈ named, e.1.2.1 ∉ ["tasminuncertainty", "tasmin_perturbation", "tasmax_perturbation"] →
      longNameOf e.1.1 e.1.2.2 = .ok (some (capitalise (e.2.2.longName (wordOf e.1.2.1)))) ∧
      (metadataOf e.1 "cell_methods" = none ∨ metadataOf e.1 "cell_methods" = some (.text (methodOf e.1.2.1))) := by
    decide +kernel
  obtain ⟨h3, h4⟩ := this e he hx
  rw [h2] at h3
  refine ⟨⟨capitalise (kind.longName (wordOf e.1.2.1)), ?_, capitalise_spec _⟩, ?_⟩
  · have h5 := fromTemplate_longName hv
    rw [h3] at h5
    injection h5 with h5
    exact h5.symm
  · intro m hm
    rw [← metadataOf_eq hv] at hm
    rcases h4 with h4 | h4
    · rw [h4] at hm; cases hm
    · rw [h4] at hm; injection hm with hm; exact hm.symm

/-- C123 fails for three definitions: the uncertainty of minima is said to be that of "mimimum" temperatures, and the
perturbations of minima and maxima are said to be of averages. -/
theorem c123_quantity_violated :
    (∃ v, Defined "tasminuncertainty" v ∧
      v.metadata "long_name" = some (.text "Total uncertainty in mimimum daily surface air temperature")) ∧
    (∃ v, Defined "tasmin_perturbation" v ∧
      v.metadata "long_name" = some (.text "Average daily surface air temperature") ∧
      v.metadata "cell_methods" = some (.text "time: mean")) ∧
    ∃ v, Defined "tasmax_perturbation" v ∧
      v.metadata "long_name" = some (.text "Average daily surface air temperature") ∧
      v.metadata "cell_methods" = some (.text "time: mean") := by
  have key : ∀ d ∈ definitions, ∃ v, fromTemplate d.1 d.2.1 d.2.2 = .ok v ∧ Defined d.2.1 v ∧
      ∀ key, v.metadata key = metadataOf d key := by
    intro d hd
    obtain ⟨v, hv⟩ := c123_definitions.1 d hd
    exact ⟨v, hv, ⟨d, hd, rfl, hv⟩, fun key => (metadataOf_eq hv key).symm⟩
  refine ⟨?_, ?_, ?_⟩
  · obtain ⟨v, -, h1, h2⟩ := key (templateUncertaintyTotal, "tasminuncertainty", quantity "mimimum") (by simp [definitions])
    exact ⟨v, h1, by rw [h2]; decide +kernel⟩
  · obtain ⟨v, -, h1, h2⟩ := key (templatePerturbation, "tasmin_perturbation", quantityOver "average" "time: mean")
      (by simp [definitions])
    exact ⟨v, h1, by rw [h2]; decide +kernel, by rw [h2]; decide +kernel⟩
  · obtain ⟨v, -, h1, h2⟩ := key (templatePerturbation, "tasmax_perturbation", quantityOver "average" "time: mean")
      (by simp [definitions])
    exact ⟨v, h1, by rw [h2]; decide +kernel, by rw [h2]; decide +kernel⟩

/-- The template of temperatures is written with pieces. -/
example : templateTemperature.longNameTemplate = some (render [.field "quantity".toList,
    .text " daily surface air temperature".toList]) ∧
    WellFormed [.field "quantity".toList, .text " daily surface air temperature".toList] ∧
    ∀ s ∈ fields [.field "quantity".toList, .text " daily surface air temperature".toList],
      textOf (quantityOver "average" "time: mean") s = some "average".toList := by
  refine ⟨by decide +kernel, ?_, by decide +kernel⟩
  intro p hp
  simp only [List.mem_cons, List.not_mem_nil, or_false] at hp
  rcases hp with rfl | rfl
  · refine ⟨by decide, by decide⟩
  · refine ⟨by decide, by decide⟩

end Verif.Eustace.Format
