import Verif.Eustace.ParseDoc.Props

/-!
C167, variables; C168: lists of data sets.
-/

namespace Verif.Eustace.ParseDoc

open Verif

/-! ### Variables -/

/-- A variable as it is written in a document: lines of metadata, and empty paragraphs after it. -/
structure Written where
  name : Text
  dtype : VarType
  metadata : List (Text × Text)
  blanks : Nat

/-- How types are written. -/
def typeText : VarType → Text
  | .float32 => "(float32)".toList
  | .int32 => "(int32)".toList
  | .int16 => "(int16)".toList
  | .char => "(char)".toList
  | .uint8 => "(uint8)".toList

/-- The paragraphs of a variable. -/
def Written.paragraphs (w : Written) : List Text :=
  ("Variable: ".toList ++ w.name ++ ' ' :: typeText w.dtype) :: w.metadata.map (fun r => line r.1 r.2) ++ List.replicate w.blanks []

/-- Text as it is meant: lists in brackets are literals. -/
def Means {α : Type} (literal : Text → Except PyErr α) (value : Text) (v : Value α) : Prop :=
  (∃ a, value.head? = some '[' ∧ literal value = .ok a ∧ v = .literal a) ∨ (value.head? ≠ some '[' ∧ v = .text value)

/-- A variable which can be written: the name has no blanks, the keys are distinct, have no `": "` and are not the word for
variables, and what is in brackets is a literal. -/
structure Written.Fine {α : Type} (literal : Text → Except PyErr α) (w : Written) : Prop where
  name : ' ' ∉ w.name
  keys : ∀ r ∈ w.metadata, ¬ colon <:+: r.1 ∧ r.1 ≠ "Variable".toList
  distinct : (w.metadata.map Prod.fst).Nodup
  values : ∀ r ∈ w.metadata, r.2.head? = some '[' → ∃ a, literal r.2 = .ok a

/-- The variable which is read is the one which is written. -/
structure Reads {α : Type} (literal : Text → Except PyErr α) (w : Written) (v : Variable α) : Prop where
  name : v.name = w.name
  dtype : v.dtype = w.dtype
  present : ∀ r ∈ w.metadata, ∃ x, v.metadata r.1 = some x ∧ Means literal r.2 x
  absent : ∀ k, k ∉ w.metadata.map Prod.fst → v.metadata k = none

theorem variableType_text (t : VarType) : variableType (typeText t) = .ok t := by
  cases t <;> decide

theorem splitBlank_free : ∀ t : Text, ' ' ∉ t → splitBlank t = [t]
  | [], _ => rfl
  | c :: t, h => by
    rw [List.mem_cons, not_or] at h
    rw [splitBlank, if_neg (fun e => h.1 e.symm), splitBlank_free t h.2]

theorem splitBlank_sep : ∀ k v : Text, ' ' ∉ k → splitBlank (k ++ ' ' :: v) = k :: splitBlank v
  | [], v, _ => by rw [List.nil_append, splitBlank, if_pos rfl]
  | c :: k, v, h => by
    rw [List.mem_cons, not_or] at h
    rw [List.cons_append, splitBlank, if_neg (fun e => h.1 e.symm), splitBlank_sep k v h.2]

theorem typeText_free (t : VarType) : ' ' ∉ typeText t := by cases t <;> decide

theorem headed_ok {α : Type} (name : Text) (t : VarType) (h : ' ' ∉ name) :
    headed ("Variable: ".toList ++ name ++ ' ' :: typeText t) = .ok (⟨name, t, fun _ => none⟩ : Variable α) := by
  have e : "Variable: ".toList ++ name ++ ' ' :: typeText t = "Variable:".toList ++ ' ' :: (name ++ ' ' :: typeText t) := by
    rw [show "Variable: ".toList = "Variable:".toList ++ [' '] from by decide]
    simp
  rw [headed, e, splitBlank_sep _ _ (by decide), splitBlank_sep _ _ h, splitBlank_free _ (typeText_free t)]
  dsimp only
  rw [variableType_text]

theorem heading_prefix (name : Text) (t : Text) : heading <+: "Variable: ".toList ++ name ++ t := by
  rw [List.append_assoc]
  exact List.prefix_append _ _

theorem colon_prefix : colon <:+: heading := by decide

/-- A line of metadata does not look like a heading. -/
theorem line_not_heading (key value : Text) (h : ¬ colon <:+: key) (hk : key ≠ "Variable".toList) : ¬ heading <+: line key value := by
  intro hp
  have hv : heading = line "Variable".toList [] := by decide
  obtain ⟨rest, hr⟩ := hp
  have e : splitPair ':' ' ' (heading ++ rest) = "Variable".toList :: splitPair ':' ' ' rest := by
    rw [hv]
    have : line "Variable".toList [] ++ rest = line "Variable".toList rest := by simp [line]
    rw [this, split_line _ _ (by decide)]
  rw [hr, split_line key value h] at e
  exact hk (List.cons_eq_cons.1 e).1

theorem line_ne_nil (key value : Text) : line key value ≠ [] := by simp [line, colon]

theorem line_drop (key value : Text) : (line key value).drop (key.length + 2) = value := by
  rw [line]
  have : (key ++ colon).length = key.length + 2 := by simp [colon]
  rw [← this, List.drop_left]

theorem metaValue_means {α : Type} (literal : Text → Except PyErr α) (value : Text)
    (h : value.head? = some '[' → ∃ a, literal value = .ok a) : ∃ v, metaValue literal value = .ok v ∧ Means literal value v := by
  by_cases hb : value.head? = some '['
  · obtain ⟨a, ha⟩ := h hb
    refine ⟨.literal a, ?_, .inl ⟨a, hb, ha, rfl⟩⟩
    cases value with
    | nil => cases hb
    | cons c rest =>
      cases hb
      rw [metaValue, ha]
  · refine ⟨.text value, ?_, .inr ⟨hb, rfl⟩⟩
    unfold metaValue
    split
    · exact absurd rfl hb
    · rfl

/-- Lines of metadata go to the newest variable. -/
theorem metadata_ok {α : Type} (literal : Text → Except PyErr α) (rest : List Text) (vs : List (Variable α)) :
    ∀ (rows : List (Text × Text)) (v : Variable α), (∀ r ∈ rows, ¬ colon <:+: r.1 ∧ r.1 ≠ "Variable".toList) →
      (rows.map Prod.fst).Nodup → (∀ r ∈ rows, r.2.head? = some '[' → ∃ a, literal r.2 = .ok a) →
      ∃ v', variablesOf literal (rows.map (fun r => line r.1 r.2) ++ rest) (v :: vs) = variablesOf literal rest (v' :: vs) ∧
        v'.name = v.name ∧ v'.dtype = v.dtype ∧ (∀ r ∈ rows, ∃ x, v'.metadata r.1 = some x ∧ Means literal r.2 x) ∧
        ∀ k, k ∉ rows.map Prod.fst → v'.metadata k = v.metadata k
  | [], v, _, _, _ => ⟨v, rfl, rfl, rfl, by simp, fun _ _ => rfl⟩
  | (key, value) :: rows, v, h1, hn, h3 => by
    rw [List.map_cons, List.nodup_cons] at hn
    obtain ⟨x, hx, hm⟩ := metaValue_means literal value (h3 _ List.mem_cons_self)
    obtain ⟨v', e1, e2, e3, e4, e5⟩ := metadata_ok literal rest vs rows
      { v with metadata := Function.update v.metadata key (some x) } (fun r hr => h1 r (List.mem_cons_of_mem _ hr)) hn.2
      fun r hr => h3 r (List.mem_cons_of_mem _ hr)
    have hk := h1 _ List.mem_cons_self
    refine ⟨v', ?_, e2, e3, ?_, ?_⟩
    · rw [List.map_cons, List.cons_append, variablesOf, if_neg (line_not_heading key value hk.1 hk.2), if_neg (line_ne_nil key value),
        split_line key value hk.1]
      dsimp only
      rw [line_drop, hx]
      exact e1
    · intro r hr
      rcases List.mem_cons.1 hr with rfl | hr
      · exact ⟨x, (e5 _ hn.1).trans (Function.update_self ..), hm⟩
      · exact e4 r hr
    · intro k hk
      rw [List.map_cons, List.mem_cons, not_or] at hk
      exact (e5 k hk.2).trans (Function.update_of_ne hk.1 ..)

theorem blanks_ok {α : Type} (literal : Text → Except PyErr α) (rest : List Text) (vs : List (Variable α)) :
    ∀ n : Nat, variablesOf literal (List.replicate n [] ++ rest) vs = variablesOf literal rest vs
  | 0 => rfl
  | n + 1 => by
    rw [List.replicate_succ, List.cons_append, variablesOf, if_neg (by decide), if_pos rfl, blanks_ok literal rest vs n]

theorem variables_ok {α : Type} (literal : Text → Except PyErr α) : ∀ (ws : List Written) (vs : List (Variable α)),
    (∀ w ∈ ws, w.Fine literal) →
    ∃ vs', variablesOf literal (ws.map Written.paragraphs).flatten vs = .ok (vs.reverse ++ vs') ∧ List.Forall₂ (Reads literal) ws vs'
  | [], vs, _ => ⟨[], by rw [List.append_nil]; rfl, .nil⟩
  | w :: ws, vs, h => by
    have hw := h w List.mem_cons_self
    obtain ⟨v, e1, e2, e3, e4, e5⟩ := metadata_ok literal (List.replicate w.blanks [] ++ (ws.map Written.paragraphs).flatten) vs
      w.metadata ⟨w.name, w.dtype, fun _ => none⟩ hw.keys hw.distinct hw.values
    obtain ⟨vs', f1, f2⟩ := variables_ok literal ws (v :: vs) fun w' hw' => h w' (List.mem_cons_of_mem _ hw')
    refine ⟨v :: vs', ?_, .cons ⟨e2, e3, e4, e5⟩ f2⟩
    rw [List.map_cons, List.flatten_cons, Written.paragraphs, List.cons_append, List.cons_append, variablesOf,
      if_pos (heading_prefix _ _), headed_ok _ _ hw.name]
    dsimp only
    rw [List.append_assoc, e1, blanks_ok, f1, List.reverse_cons, List.append_assoc]
    rfl

/-- **C167**, variables: the variables of a document are read in order, each with its name, its type and exactly its metadata, whose
values may have `": "` in them. -/
theorem c167_variables {α : Type} (literal : Text → Except PyErr α) (start stop : Text) (pre post : List Text) (s e : Text)
    (ws : List Written) (hpre : ∀ p ∈ pre, ¬ start <:+: p) (hs : start <:+: s) (he : stop <:+: e)
    (hstop : ∀ p ∈ (ws.map Written.paragraphs).flatten, ¬ stop <:+: p) (hf : ∀ w ∈ ws, w.Fine literal) :
    ∃ vs, readVariables literal (pre ++ s :: (ws.map Written.paragraphs).flatten ++ e :: post) start stop = .ok vs ∧
      List.Forall₂ (Reads literal) ws vs := by
  obtain ⟨vs, h1, h2⟩ := variables_ok literal ws [] hf
  refine ⟨vs, ?_, h2⟩
  rw [readVariables, c167_between start stop pre _ post s e hpre hs hstop he, h1]
  rfl

/-- A variable with flags. -/
def exampleVariable : Written :=
  ⟨"tas".toList, .int16, [("units".toList, "K".toList), ("long_name".toList, "Note: mean".toList), ("flag_values".toList, "[0, 1]".toList)], 1⟩

/-- Non-vacuity. -/
example : exampleVariable.Fine (fun _ => (.ok () : Except PyErr Unit)) :=
  ⟨by decide, by decide, by decide, fun _ _ _ => ⟨(), rfl⟩⟩

/-- **C167**: metadata before the first variable is an error. -/
theorem c167_orphan {α : Type} (literal : Text → Except PyErr α) (key value : Text) (ps : List Text) (h : ¬ colon <:+: key)
    (hk : key ≠ "Variable".toList) (hv : value.head? ≠ some '[') :
    variablesOf literal (line key value :: ps) [] = .error .attributeError := by
  obtain ⟨v, h1, _⟩ := metaValue_means literal value fun h => absurd h hv
  rw [variablesOf, if_neg (line_not_heading key value h hk), if_neg (line_ne_nil key value), split_line key value h]
  dsimp only
  rw [line_drop, h1]

/-- **C167** does not hold for a paragraph of several words without `": "`, such as a comment: it is taken for metadata without a
value. -/
theorem c167_comment_violated {α : Type} (literal : Text → Except PyErr α) (p : Text) (hp : p ≠ []) (h : ¬ colon <:+: p) (v : Variable α)
    (vs : List (Variable α)) (ps : List Text) :
    variablesOf literal (p :: ps) (v :: vs) =
      variablesOf literal ps ({ v with metadata := Function.update v.metadata p (some (.text [])) } :: vs) := by
  have h1 : ¬ heading <+: p := fun h' => h (colon_prefix.trans h'.isInfix)
  rw [variablesOf, if_neg h1, if_neg hp, splitPair_free _ _ p h]
  dsimp only
  rw [List.drop_eq_nil_of_le (by omega)]
  rfl

/-! ### Data sets -/

/-- The description of a data set: its heading, paragraphs before the path, the paragraph with the path, and paragraphs after it. -/
structure Described where
  name : Text
  before : List Text
  path : Text
  after : List Text

/-- The paragraphs of a description. -/
def Described.paragraphs (d : Described) : List Text := d.name :: d.before ++ d.path :: d.after

theorem loop_unmarked (headings : List Text) (mark : Text) : ∀ (ps rest : List Text) (current : Option Text)
    (result : Option Text → Option Text), (∀ p ∈ ps, p ∈ headings ∨ ¬ mark <:+: p) →
    ∃ current', containingLoop headings mark current result (ps ++ rest) = containingLoop headings mark current' result rest
  | [], rest, current, result, _ => ⟨current, rfl⟩
  | p :: ps, rest, current, result, h => by
    have ht : ∀ q ∈ ps, q ∈ headings ∨ ¬ mark <:+: q := fun q hq => h q (List.mem_cons_of_mem _ hq)
    rw [List.cons_append, containingLoop]
    by_cases hp : p ∈ headings
    · rw [if_pos hp]
      exact loop_unmarked headings mark ps rest (some p) result ht
    · have hm : ¬ mark <:+: p := (h p List.mem_cons_self).resolve_left hp
      rw [if_neg hp, if_neg (by rw [within_iff]; exact hm)]
      exact loop_unmarked headings mark ps rest current result ht

theorem loop_plain (headings : List Text) (mark : Text) (current : Option Text) (result : Option Text → Option Text) (rest : List Text) :
    ∀ ps : List Text, (∀ p ∈ ps, p ∉ headings ∧ ¬ mark <:+: p) →
      containingLoop headings mark current result (ps ++ rest) = containingLoop headings mark current result rest
  | [], _ => rfl
  | p :: ps, h => by
    obtain ⟨h1, h2⟩ := h p List.mem_cons_self
    rw [List.cons_append, containingLoop, if_neg h1, if_neg (by rw [within_iff]; exact h2),
      loop_plain headings mark current result rest ps fun q hq => h q (List.mem_cons_of_mem _ hq)]

theorem loop_full (headings : List Text) (mark : Text) (current : Option Text) (result : Option Text → Option Text) (rest : List Text)
    (hr : result current ≠ none) : ∀ ps : List Text, (∀ p ∈ ps, p ∉ headings) →
      containingLoop headings mark current result (ps ++ rest) = containingLoop headings mark current result rest
  | [], _ => rfl
  | p :: ps, h => by
    have ih := loop_full headings mark current result rest hr ps fun q hq => h q (List.mem_cons_of_mem _ hq)
    rw [List.cons_append, containingLoop, if_neg (h p List.mem_cons_self), if_neg hr, ih, ite_self]

theorem loop_stays (headings : List Text) (mark : Text) (k : Option Text) (v : Text) : ∀ (ps : List Text) (current : Option Text)
    (result : Option Text → Option Text), result k = some v → containingLoop headings mark current result ps k = some v
  | [], _, _, h => h
  | p :: ps, current, result, h => by
    rw [containingLoop]
    split
    · exact loop_stays headings mark k v ps _ _ h
    · split
      · split
        · rename_i hn
          refine loop_stays headings mark k v ps _ _ ?_
          rw [Function.update_of_ne]
          · exact h
          · rintro rfl
            rw [hn] at h
            cases h
        · exact loop_stays headings mark k v ps _ _ h
      · exact loop_stays headings mark k v ps _ _ h

/-- The first paragraph with the mark after a heading is kept. -/
theorem loop_first (headings : List Text) (mark : Text) (name : Text) (before : List Text) (path : Text) (hname : name ∈ headings)
    (hbefore : ∀ p ∈ before, p ∉ headings ∧ ¬ mark <:+: p) (hpath : path ∉ headings) (hmark : mark <:+: path) (current : Option Text)
    (result : Option Text → Option Text) (hr : result (some name) = none) (rest : List Text) :
    containingLoop headings mark current result (name :: before ++ path :: rest) =
      containingLoop headings mark (some name) (Function.update result (some name) (some path)) rest := by
  rw [List.cons_append, containingLoop, if_pos hname, loop_plain headings mark _ _ _ before hbefore, containingLoop, if_neg hpath,
    if_pos ((within_iff _ _).2 hmark), if_pos hr]

/-- A description which can be read. -/
structure Described.Fine (headings : List Text) (mark : Text) (d : Described) : Prop where
  name : d.name ∈ headings
  before : ∀ p ∈ d.before, p ∉ headings ∧ ¬ mark <:+: p
  path : d.path ∉ headings ∧ mark <:+: d.path
  after : ∀ p ∈ d.after, p ∉ headings

theorem loop_described (headings : List Text) (mark : Text) : ∀ (ds : List Described) (current : Option Text)
    (result : Option Text → Option Text), (∀ d ∈ ds, d.Fine headings mark) → (ds.map Described.name).Nodup →
    (∀ d ∈ ds, result (some d.name) = none) →
    ∀ d ∈ ds, containingLoop headings mark current result (ds.map Described.paragraphs).flatten (some d.name) = some d.path
  | [], _, _, _, _, _ => by simp
  | d :: ds, current, result, h, hn, hr => by
    rw [List.map_cons, List.nodup_cons] at hn
    have hd := h d List.mem_cons_self
    have step : containingLoop headings mark current result ((d :: ds).map Described.paragraphs).flatten =
        containingLoop headings mark (some d.name) (Function.update result (some d.name) (some d.path))
          (ds.map Described.paragraphs).flatten := by
      rw [List.map_cons, List.flatten_cons, Described.paragraphs, List.append_assoc, List.cons_append (bs := _) (a := d.path),
        loop_first headings mark d.name d.before d.path hd.name hd.before hd.path.1 hd.path.2 current result (hr d List.mem_cons_self),
        loop_full headings mark _ _ _ (by rw [Function.update_self]; exact Option.some_ne_none _) d.after hd.after]
    rw [step]
    intro d' hd'
    rcases List.mem_cons.1 hd' with rfl | hd'
    · exact loop_stays headings mark _ _ _ _ _ (Function.update_self ..)
    · refine loop_described headings mark ds _ _ (fun q hq => h q (List.mem_cons_of_mem _ hq)) hn.2 ?_ d' hd'
      intro q hq
      rw [Function.update_of_ne]
      · exact hr q (List.mem_cons_of_mem _ hq)
      · intro e
        exact hn.1 (Option.some.inj e ▸ List.mem_map.2 ⟨q, hq, rfl⟩)

/-- **C168**: for a document whose contents list the data sets, in which no path is named before the descriptions, each of which
has a path, the list of data sets has all names of the contents, in order, each with the first path of its description. -/
theorem c168_datasets (start stop workspace : Text) (pre names preface : List Text) (s e : Text) (ds : List Described)
    (hpre : ∀ p ∈ pre, ¬ start <:+: p) (hs : start <:+: s) (hnames : ∀ n ∈ names, ¬ stop <:+: n) (he : stop <:+: e)
    (hfree : ∀ p ∈ pre ++ s :: names ++ e :: preface, p ∈ names ∨ ¬ workspace <:+: p)
    (hf : ∀ d ∈ ds, d.Fine names workspace) (hn : (ds.map Described.name).Nodup) :
    (datasetList (pre ++ s :: names ++ e :: (preface ++ (ds.map Described.paragraphs).flatten)) start stop workspace).map Prod.fst =
        names ∧
      ∀ d ∈ ds, ∀ x, (d.name, x) ∈
        datasetList (pre ++ s :: names ++ e :: (preface ++ (ds.map Described.paragraphs).flatten)) start stop workspace ↔
          x = some d.path := by
  have hb := c167_between start stop pre names (preface ++ (ds.map Described.paragraphs).flatten) s e hpre hs hnames he
  have hl : ∀ d ∈ ds, containing (pre ++ s :: names ++ e :: (preface ++ (ds.map Described.paragraphs).flatten)) names workspace
      (some d.name) = some d.path := by
    intro d hd
    have hsplit : pre ++ s :: names ++ e :: (preface ++ (ds.map Described.paragraphs).flatten) =
        (pre ++ s :: names ++ e :: preface) ++ (ds.map Described.paragraphs).flatten := by simp
    obtain ⟨current, hc⟩ := loop_unmarked names workspace _ (ds.map Described.paragraphs).flatten none (fun _ => none) hfree
    rw [containing, hsplit, hc]
    exact loop_described names workspace ds current _ hf hn (fun _ _ => rfl) d hd
  rw [datasetList]
  rw [hb]
  constructor
  · rw [List.map_map]
    exact List.map_id names
  · intro d hd x
    rw [List.mem_map]
    constructor
    · rintro ⟨n, _, h⟩
      rw [Prod.mk.injEq] at h
      obtain ⟨rfl, rfl⟩ := h
      exact hl d hd
    · rintro rfl
      exact ⟨d.name, (hf d hd).name, by rw [hl d hd]⟩

/-- Non-vacuity: two data sets. -/
example : (∀ p ∈ ["8. Input Data Sets".toList, "A".toList, "B".toList, "Output Data".toList, "Introduction".toList],
      p ∈ ["A".toList, "B".toList] ∨ ¬ "/gws".toList <:+: p) ∧
    (⟨"B".toList, ["About B".toList], "/gws/b".toList, ["see /gws/c".toList]⟩ : Described).Fine ["A".toList, "B".toList] "/gws".toList := by
  refine ⟨by decide, ⟨by decide, by decide, by decide, by decide⟩⟩

/-- **C168** does not hold if a path is named between the contents and the descriptions: the last data set of the contents gets it,
whatever its description says. -/
theorem c168_preface_violated (start stop workspace : Text) (pre names preface : List Text) (s e last path : Text) (rest : List Text)
    (hpre : ∀ p ∈ pre, ¬ start <:+: p) (hs : start <:+: s) (hnames : ∀ n ∈ names ++ [last], ¬ stop <:+: n) (he : stop <:+: e)
    (hfree : ∀ p ∈ pre ++ s :: names, p ∈ names ++ [last] ∨ ¬ workspace <:+: p)
    (hafter : ∀ p ∈ e :: preface, p ∉ names ++ [last] ∧ ¬ workspace <:+: p) (hpath : path ∉ names ++ [last])
    (hmark : workspace <:+: path) :
    (last, some path) ∈ datasetList (pre ++ s :: (names ++ [last]) ++ e :: (preface ++ path :: rest)) start stop workspace := by
  have hb := c167_between start stop pre (names ++ [last]) (preface ++ path :: rest) s e hpre hs hnames he
  have hl : containing (pre ++ s :: (names ++ [last]) ++ e :: (preface ++ path :: rest)) (names ++ [last]) workspace (some last) =
      some path := by
    have hsplit : pre ++ s :: (names ++ [last]) ++ e :: (preface ++ path :: rest) =
        (pre ++ s :: names) ++ (last :: (e :: preface) ++ path :: rest) := by simp
    obtain ⟨current, hc⟩ := loop_unmarked (names ++ [last]) workspace _ (last :: (e :: preface) ++ path :: rest) none (fun _ => none) hfree
    rw [containing, hsplit, hc, loop_first (names ++ [last]) workspace last (e :: preface) path (by simp) hafter hpath hmark _ _ rfl]
    exact loop_stays _ _ _ _ _ _ _ (Function.update_self ..)
  rw [datasetList]
  rw [hb, List.mem_map]
  exact ⟨last, by simp, by rw [hl]⟩

/-- Non-vacuity. -/
example : (∀ p ∈ ["Output Data".toList, "Introduction".toList], p ∉ ["A".toList, "B".toList] ∧ ¬ "/gws".toList <:+: p) ∧
    "/gws".toList <:+: "All data is below /gws.".toList := by decide

end Verif.Eustace.ParseDoc
