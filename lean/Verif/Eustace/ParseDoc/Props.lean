import Verif.Eustace.ParseDoc.Model
import Verif.Eustace.Insitu.OceanProps

/-!
C167: what is read from documents.
-/

namespace Verif.Eustace.ParseDoc

open Verif

/-! ### Specification -/

/-- `": "`. -/
def colon : Text := [':', ' ']

/-- A line of a table. -/
def line (key value : Text) : Text := key ++ colon ++ value

/-- A run of text in a document. -/
def runNode (t : Text) : Node := .mk .other none [.mk .text (some t) []]

/-- A document of paragraphs, each of which consists of runs of text. -/
def documentOf (paragraphs : List (List Text)) : Node :=
  .mk .other none [.mk .other none (paragraphs.map fun runs => .mk .para none (runs.map runNode))]

/-- Text which is only of ASCII characters. -/
def Ascii (t : Text) : Prop := ∀ c ∈ t, c.toNat < 128

instance (t : Text) : Decidable (Ascii t) := inferInstanceAs (Decidable (∀ c ∈ t, _))

/-- A number of digits only. -/
def Number (t : Text) : Prop := t ≠ [] ∧ ∀ c ∈ t, c.isDigit = true

/-! ### Paragraphs -/

theorem encode_ok {t : Text} (h : Ascii t) : encode t = .ok t := if_pos h

theorem encode_error {t : Text} (h : ¬ Ascii t) : encode t = .error .valueError := if_neg h

theorem iterators_append (tag : Tag) : ∀ a b : List Node, iterators tag (a ++ b) = iterators tag a ++ iterators tag b
  | [], b => by simp [iterators]
  | n :: a, b => by rw [List.cons_append, iterators, iterators, iterators_append tag a b, List.append_assoc]

theorem iterators_runs (ignore : Bool) : ∀ runs : List Text,
    (iterators .text (runs.map runNode)).map (nodeText ignore) = runs.map fun t => nodeText ignore (.mk .text (some t) [])
  | [] => by simp [iterators]
  | t :: runs => by
    rw [List.map_cons, iterators, List.map_append, iterators_runs ignore runs]
    simp [runNode, Node.iterator, iterators]

theorem iterators_runs_para : ∀ runs : List Text, iterators .para (runs.map runNode) = []
  | [] => by simp [iterators]
  | t :: runs => by
    rw [List.map_cons, iterators, iterators_runs_para runs]
    simp [runNode, Node.iterator, iterators]

theorem iterators_paras : ∀ ps : List (List Text),
    iterators .para (ps.map fun runs => Node.mk .para none (runs.map runNode)) = ps.map fun runs => Node.mk .para none (runs.map runNode)
  | [] => by simp [iterators]
  | p :: ps => by
    rw [List.map_cons, iterators, iterators_paras ps, Node.iterator, if_pos rfl, iterators_runs_para]
    rfl

theorem parse_document (ignore : Bool) (ps : List (List Text)) :
    parseParagraphs ignore (documentOf ps) = ps.map fun runs => (runs.map fun t => nodeText ignore (.mk .text (some t) [])).flatten := by
  have h : (documentOf ps).iterator .para = ps.map fun runs => Node.mk .para none (runs.map runNode) := by
    rw [documentOf, Node.iterator, if_neg (by decide), iterators, iterators, Node.iterator, if_neg (by decide), iterators_paras]
    simp
  rw [parseParagraphs, h, List.map_map]
  refine List.map_congr_left fun runs _ => ?_
  show (((Node.mk .para none (runs.map runNode)).iterator .text).map (nodeText ignore)).flatten = _
  rw [Node.iterator, if_neg (by decide), List.nil_append, iterators_runs]

/-- **C167**, text: every paragraph of a document of ASCII text is read, in order, with the text of its runs. -/
theorem c167_text (ps : List (List Text)) (h : ∀ runs ∈ ps, ∀ t ∈ runs, Ascii t) :
    parseParagraphs false (documentOf ps) = ps.map List.flatten := by
  rw [parse_document]
  refine List.map_congr_left fun runs hr => ?_
  congr 1
  rw [List.map_congr_left (g := id)]
  · simp
  · intro t ht
    rw [nodeText]
    dsimp only [Node.content]
    by_cases h0 : t = []
    · simp [h0]
    · rw [if_pos ⟨h0, .inl rfl⟩, encode_ok (h runs hr t ht)]
      rfl

/-- Non-vacuity. -/
example : ∀ runs ∈ [["Air ".toList, "temperature".toList], ["12".toList]], ∀ t ∈ runs, Ascii t := by decide

/-- **C167**, text: with `ignore_trailing_digits` exactly the runs which are numbers are left out. -/
theorem c167_digits (ps : List (List Text)) (h : ∀ runs ∈ ps, ∀ t ∈ runs, Ascii t) [DecidablePred Number] :
    parseParagraphs true (documentOf ps) = ps.map fun runs => (runs.filter fun t => decide (¬ Number t)).flatten := by
  rw [parse_document]
  refine List.map_congr_left fun runs hr => ?_
  have h := h runs hr
  clear hr
  induction runs with
  | nil => rfl
  | cons t runs ih =>
    rw [List.map_cons, List.flatten_cons, ih fun t ht => h t (List.mem_cons_of_mem _ ht)]
    have hc : nodeText true (.mk .text (some t) []) = if Number t then [] else t := by
      rw [nodeText]
      dsimp only [Node.content]
      by_cases h0 : t = []
      · simp [h0]
      · by_cases hd : ∀ c ∈ t, c.isDigit = true
        · rw [if_neg, if_pos ⟨h0, hd⟩]
          rintro ⟨_, h1 | h1⟩
          · cases h1
          · exact h1 (List.all_eq_true.2 hd)
        · rw [if_pos ⟨h0, .inr fun h1 => hd (List.all_eq_true.1 h1)⟩, if_neg fun h1 => hd h1.2, encode_ok (h t List.mem_cons_self)]
    rw [hc, List.filter_cons]
    by_cases hn : Number t
    · rw [if_pos hn, if_neg (by simpa using hn)]
      rfl
    · rw [if_neg hn, if_pos (by simpa using hn)]
      rfl

/-- **C167** does not hold for a run with a character which is not ASCII: all of the run is lost without an error. -/
theorem c167_ascii_violated (ignore : Bool) (a b t : Text) (ht : ¬ Ascii t) :
    parseParagraphs ignore (documentOf [[a, t, b]]) = parseParagraphs ignore (documentOf [[a, b]]) := by
  have : nodeText ignore (.mk .text (some t) []) = [] := by
    rw [nodeText]
    dsimp only [Node.content]
    split
    · rw [encode_error ht]
    · rfl
  rw [parse_document, parse_document]
  simp [this]

/-- Non-vacuity. -/
example : ¬ Ascii "température".toList := by decide

/-- **C167** does not hold for a paragraph inside a paragraph, as in a text box: its text is read twice. -/
theorem c167_nested_violated (outer inner : Text) (h : Ascii outer) (h' : Ascii inner) :
    parseParagraphs false (.mk .other none [.mk .para none [runNode outer, .mk .other none [.mk .para none [runNode inner]]]]) =
      [outer ++ inner, inner] := by
  have hn : ∀ t, Ascii t → nodeText false (.mk .text (some t) []) = t := by
    intro t ht
    rw [nodeText]
    dsimp only [Node.content]
    by_cases h0 : t = []
    · simp [h0]
    · rw [if_pos ⟨h0, .inl rfl⟩, encode_ok ht]
  simp [parseParagraphs, Node.iterator, iterators, runNode, hn outer h, hn inner h']

/-! ### Markers -/

theorem within_iff (needle t : Text) : within needle t = true ↔ needle <:+: t := by rw [within, decide_eq_true_iff]

theorem between_inside (start stop : Text) : ∀ mid rest : List Text, (∀ p ∈ mid, ¬ stop <:+: p) →
    betweenLoop start stop true (mid ++ rest) = mid ++ betweenLoop start stop true rest
  | [], _, _ => rfl
  | p :: mid, rest, h => by
    rw [List.cons_append, betweenLoop, if_neg (by rw [within_iff]; exact h p List.mem_cons_self),
      between_inside start stop mid rest fun q hq => h q (List.mem_cons_of_mem _ hq)]
    rfl

theorem between_before (start stop : Text) : ∀ pre rest : List Text, (∀ p ∈ pre, ¬ start <:+: p) →
    betweenLoop start stop false (pre ++ rest) = betweenLoop start stop false rest
  | [], _, _ => rfl
  | p :: pre, rest, h => by
    rw [List.cons_append, betweenLoop, if_neg (by rw [within_iff]; exact h p List.mem_cons_self),
      between_before start stop pre rest fun q hq => h q (List.mem_cons_of_mem _ hq)]

/-- **C167**, markers: the paragraphs between the first one with the start marker and the next one with the end marker. -/
theorem c167_between (start stop : Text) (pre mid post : List Text) (s e : Text) (hpre : ∀ p ∈ pre, ¬ start <:+: p)
    (hs : start <:+: s) (hmid : ∀ p ∈ mid, ¬ stop <:+: p) (he : stop <:+: e) :
    between (pre ++ s :: mid ++ e :: post) start stop = mid := by
  rw [between, List.append_assoc, between_before start stop pre _ hpre, List.cons_append, betweenLoop,
    if_pos ((within_iff _ _).2 hs), between_inside start stop mid _ hmid, betweenLoop, if_pos ((within_iff _ _).2 he), List.append_nil]

/-- Non-vacuity. -/
example : "dimensions".toList <:+: "The dimensions are".toList ∧ ¬ "Dependencies".toList <:+: "time: UNLIMITED".toList := by decide

/-- **C167** does not hold if the end marker is missing: all the rest of the document is returned, without an error. -/
theorem c167_unended_violated (start stop : Text) (pre mid : List Text) (s : Text) (hpre : ∀ p ∈ pre, ¬ start <:+: p)
    (hs : start <:+: s) (hmid : ∀ p ∈ mid, ¬ stop <:+: p) : between (pre ++ s :: mid) start stop = mid := by
  rw [between, between_before start stop pre _ hpre, betweenLoop, if_pos ((within_iff _ _).2 hs)]
  have := between_inside start stop mid [] hmid
  rw [List.append_nil] at this
  rw [this, betweenLoop, List.append_nil]

/-- **C167** does not hold if the start marker is missing: nothing is returned, without an error. -/
theorem c167_unstarted_violated (start stop : Text) (ps : List Text) (h : ∀ p ∈ ps, ¬ start <:+: p) : between ps start stop = [] := by
  have := between_before start stop ps [] h
  rw [List.append_nil] at this
  rw [between, this, betweenLoop]

/-! ### Splitting -/

theorem splitPair_ne_nil (a b : Char) : ∀ t : Text, splitPair a b t ≠ []
  | [] => by simp [splitPair]
  | [c] => by simp [splitPair]
  | c :: d :: rest => by
    rw [splitPair]
    split
    · simp
    · split <;> simp

theorem splitPair_free (a b : Char) : ∀ t : Text, ¬ [a, b] <:+: t → splitPair a b t = [t]
  | [], _ => rfl
  | [c], _ => rfl
  | c :: d :: rest, h => by
    have h1 : ¬ (c = a ∧ d = b) := by
      rintro ⟨rfl, rfl⟩
      exact h ⟨[], rest, rfl⟩
    have h2 : ¬ [a, b] <:+: d :: rest := fun h' => h (h'.trans (List.suffix_cons c _).isInfix)
    rw [splitPair, if_neg h1, splitPair_free a b (d :: rest) h2]

theorem splitPair_sep (a b : Char) (hab : a ≠ b) : ∀ k v : Text, ¬ [a, b] <:+: k →
    splitPair a b (k ++ a :: b :: v) = k :: splitPair a b v
  | [], v, _ => by rw [List.nil_append, splitPair, if_pos ⟨rfl, rfl⟩]
  | [c], v, _ => by
    rw [List.cons_append, List.nil_append, splitPair, if_neg (fun h => hab h.2), splitPair, if_pos ⟨rfl, rfl⟩]
  | c :: d :: k, v, h => by
    have h1 : ¬ (c = a ∧ d = b) := by
      rintro ⟨rfl, rfl⟩
      exact h ⟨[], k, rfl⟩
    have h2 : ¬ [a, b] <:+: d :: k := fun h' => h (h'.trans (List.suffix_cons c _).isInfix)
    have ih := splitPair_sep a b hab (d :: k) v h2
    rw [List.cons_append, List.cons_append, splitPair, if_neg h1]
    rw [List.cons_append] at ih
    rw [ih]

theorem split_line (key value : Text) (h : ¬ colon <:+: key) :
    splitPair ':' ' ' (line key value) = key :: splitPair ':' ' ' value := by
  rw [line, List.append_assoc]
  exact splitPair_sep ':' ' ' (by decide) key value h

theorem split_line_exact (key value : Text) (h : ¬ colon <:+: key) (h' : ¬ colon <:+: value) :
    splitPair ':' ' ' (line key value) = [key, value] := by
  rw [split_line key value h, splitPair_free _ _ value h']

/-! ### Attributes -/

theorem attributes_ok : ∀ (table : List (Text × Text)) (d : Dict Text), (∀ r ∈ table, ¬ colon <:+: r.1) →
    (∀ r ∈ table, ¬ colon <:+: r.2) → (table.map Prod.fst).Nodup →
    ∃ d', attributesOf (table.map fun r => line r.1 r.2) d = .ok d' ∧ (∀ r ∈ table, d' r.1 = some r.2) ∧
      ∀ k, k ∉ table.map Prod.fst → d' k = d k
  | [], d, _, _, _ => ⟨d, rfl, by simp, fun _ _ => rfl⟩
  | r :: table, d, h1, h2, hn => by
    rw [List.map_cons, List.nodup_cons] at hn
    obtain ⟨d', e1, e2, e3⟩ := attributes_ok table (Function.update d r.1 (some r.2)) (fun q hq => h1 q (List.mem_cons_of_mem _ hq))
      (fun q hq => h2 q (List.mem_cons_of_mem _ hq)) hn.2
    refine ⟨d', ?_, ?_, ?_⟩
    · rw [List.map_cons, attributesOf, split_line_exact _ _ (h1 r List.mem_cons_self) (h2 r List.mem_cons_self)]
      exact e1
    · intro q hq
      rcases List.mem_cons.1 hq with rfl | hq
      · rw [e3 _ hn.1, Function.update_self]
      · exact e2 q hq
    · intro k hk
      rw [List.map_cons, List.mem_cons, not_or] at hk
      rw [e3 k hk.2, Function.update_of_ne hk.1]

/-- **C167**, attributes: a table of distinct keys and values without `": "` between its markers is read exactly. -/
theorem c167_attributes (start stop : Text) (pre post : List Text) (s e : Text) (table : List (Text × Text))
    (hpre : ∀ p ∈ pre, ¬ start <:+: p) (hs : start <:+: s) (he : stop <:+: e) (hstop : ∀ r ∈ table, ¬ stop <:+: line r.1 r.2)
    (h1 : ∀ r ∈ table, ¬ colon <:+: r.1) (h2 : ∀ r ∈ table, ¬ colon <:+: r.2) (hn : (table.map Prod.fst).Nodup) :
    ∃ d, readAttributes (pre ++ s :: table.map (fun r => line r.1 r.2) ++ e :: post) start stop = .ok d ∧
      ∀ k v, d k = some v ↔ (k, v) ∈ table := by
  obtain ⟨d, e1, e2, e3⟩ := attributes_ok table (fun _ => none) h1 h2 hn
  refine ⟨d, ?_, ?_⟩
  · rw [readAttributes, c167_between start stop pre _ post s e hpre hs ?_ he, e1]
    intro p hp
    obtain ⟨r, hr, rfl⟩ := List.mem_map.1 hp
    exact hstop r hr
  · intro k v
    constructor
    · intro h
      by_cases hk : k ∈ table.map Prod.fst
      · obtain ⟨r, hr, rfl⟩ := List.mem_map.1 hk
        rw [e2 r hr] at h
        cases h
        exact hr
      · rw [e3 k hk] at h
        cases h
    · exact fun h => e2 (k, v) h

/-- Non-vacuity. -/
example : ∀ r ∈ [("Conventions".toList, "CF-1.6".toList), ("title".toList, "Air temperature".toList)],
    ¬ colon <:+: r.1 ∧ ¬ colon <:+: r.2 ∧ ¬ "See section".toList <:+: line r.1 r.2 := by decide

/-- **C167** does not hold for values with `": "`: what follows is lost. -/
theorem c167_attribute_violated (start stop : Text) (pre post : List Text) (s e : Text) (key value rest : Text)
    (hpre : ∀ p ∈ pre, ¬ start <:+: p) (hs : start <:+: s) (he : stop <:+: e) (hstop : ¬ stop <:+: line key (line value rest))
    (h1 : ¬ colon <:+: key) (h2 : ¬ colon <:+: value) :
    ∃ d, readAttributes (pre ++ s :: [line key (line value rest)] ++ e :: post) start stop = .ok d ∧ d key = some value := by
  refine ⟨Function.update (fun _ => none) key (some value), ?_, Function.update_self ..⟩
  rw [readAttributes, c167_between start stop pre _ post s e hpre hs ?_ he, attributesOf, split_line _ _ h1, split_line _ _ h2]
  · rfl
  · intro p hp
    rw [List.mem_singleton] at hp
    rw [hp]
    exact hstop

/-- Non-vacuity: a title with a subtitle. -/
example : ¬ colon <:+: "title".toList ∧ ¬ colon <:+: "EUSTACE".toList := by decide

/-- **C167**: a paragraph without `": "` among the attributes, such as an empty one, is an error. -/
theorem c167_attribute_error (d : Dict Text) (p : Text) (ps : List Text) (h : ¬ colon <:+: p) :
    attributesOf (p :: ps) d = .error .indexError := by
  rw [attributesOf, splitPair_free _ _ p h]

/-! ### Dimensions -/

theorem intOf_decimal (n : Nat) : Insitu.Ocean.intOf (Nat.toDigits 10 n) = some (n : Int) := by
  have hd := Insitu.Ocean.toDigits_digit n
  have hs : Insitu.Ocean.strip (Nat.toDigits 10 n) = Nat.toDigits 10 n := by
    have := Insitu.Ocean.strip_of 0 0 (Nat.toDigits 10 n) Nat.toDigits_ne_nil fun c hc => Insitu.Ocean.digit_not_space (hd c hc)
    simpa using this
  rw [Insitu.Ocean.intOf, hs, Insitu.Ocean.signed.eq_def]
  split
  · rename_i ds he
    have := hd '-' (by rw [he]; exact List.mem_cons_self)
    exact absurd this (by decide)
  · rename_i ds he
    have := hd '+' (by rw [he]; exact List.mem_cons_self)
    exact absurd this (by decide)
  · rw [Insitu.Ocean.digitsOf_toDigits]
    rfl

/-- The text of a size. -/
def sizeText : Option Nat → Text
  | none => "UNLIMITED".toList
  | some n => Nat.toDigits 10 n

theorem sizeText_free (x : Option Nat) : ¬ colon <:+: sizeText x := by
  cases x with
  | none => decide
  | some n =>
    rintro ⟨a, b, h⟩
    have := Insitu.Ocean.toDigits_digit n ':' (by rw [show Nat.toDigits 10 n = a ++ colon ++ b from h.symm]; simp [colon])
    exact absurd this (by decide)

theorem sizeText_number (n : Nat) : Nat.toDigits 10 n ≠ "UNLIMITED".toList := by
  intro h
  have := Insitu.Ocean.toDigits_digit n 'U' (by rw [h]; decide)
  exact absurd this (by decide)

theorem dimensions_ok : ∀ (table : List (Text × Option Nat)) (d : Dict (Option Int)), (∀ r ∈ table, ¬ colon <:+: r.1) →
    (table.map Prod.fst).Nodup →
    ∃ d', dimensionsOf (table.map fun r => line r.1 (sizeText r.2)) d = .ok d' ∧
      (∀ r ∈ table, d' r.1 = some (r.2.map fun n : Nat => (n : Int))) ∧ ∀ k, k ∉ table.map Prod.fst → d' k = d k
  | [], d, _, _ => ⟨d, rfl, by simp, fun _ _ => rfl⟩
  | (key, size) :: table, d, h1, hn => by
    rw [List.map_cons, List.nodup_cons] at hn
    obtain ⟨d', e1, e2, e3⟩ := dimensions_ok table (Function.update d key (some (size.map fun n : Nat => (n : Int))))
      (fun q hq => h1 q (List.mem_cons_of_mem _ hq)) hn.2
    refine ⟨d', ?_, ?_, ?_⟩
    · rw [List.map_cons, dimensionsOf, split_line_exact _ _ (h1 _ List.mem_cons_self) (sizeText_free size)]
      dsimp only
      cases size with
      | none =>
        rw [if_pos (show sizeText none = "UNLIMITED".toList from rfl)]
        exact e1
      | some n =>
        rw [if_neg (show ¬ sizeText (some n) = "UNLIMITED".toList from sizeText_number n),
          show Insitu.Ocean.intOf (sizeText (some n)) = some (n : Int) from intOf_decimal n]
        exact e1
    · intro q hq
      rcases List.mem_cons.1 hq with rfl | hq
      · rw [e3 _ hn.1, Function.update_self]
      · exact e2 q hq
    · intro k hk
      rw [List.map_cons, List.mem_cons, not_or] at hk
      rw [e3 k hk.2, Function.update_of_ne hk.1]

/-- **C167**, dimensions: a heading and then a table of distinct names with their sizes is read exactly. -/
theorem c167_dimensions (start stop : Text) (pre post : List Text) (s e title : Text) (table : List (Text × Option Nat))
    (hpre : ∀ p ∈ pre, ¬ start <:+: p) (hs : start <:+: s) (he : stop <:+: e) (htitle : ¬ stop <:+: title)
    (hstop : ∀ r ∈ table, ¬ stop <:+: line r.1 (sizeText r.2)) (h1 : ∀ r ∈ table, ¬ colon <:+: r.1)
    (hn : (table.map Prod.fst).Nodup) :
    ∃ d, readDimensions (pre ++ s :: (title :: table.map fun r => line r.1 (sizeText r.2)) ++ e :: post) start stop = .ok d ∧
      ∀ k x, d k = some x ↔ ∃ size, (k, size) ∈ table ∧ x = size.map fun n : Nat => (n : Int) := by
  obtain ⟨d, e1, e2, e3⟩ := dimensions_ok table (fun _ => none) h1 hn
  refine ⟨d, ?_, ?_⟩
  · rw [readDimensions, c167_between start stop pre _ post s e hpre hs ?_ he, List.tail_cons, e1]
    intro p hp
    rcases List.mem_cons.1 hp with rfl | hp
    · exact htitle
    · obtain ⟨r, hr, rfl⟩ := List.mem_map.1 hp
      exact hstop r hr
  · intro k x
    constructor
    · intro h
      by_cases hk : k ∈ table.map Prod.fst
      · obtain ⟨r, hr, rfl⟩ := List.mem_map.1 hk
        rw [e2 r hr] at h
        cases h
        exact ⟨r.2, hr, rfl⟩
      · rw [e3 k hk] at h
        cases h
    · rintro ⟨size, h, rfl⟩
      exact e2 (k, size) h

/-- Non-vacuity. -/
example : ∀ r ∈ [("time".toList, (none : Option Nat)), ("latitude".toList, some 720)],
    ¬ colon <:+: r.1 ∧ ¬ "Dependencies".toList <:+: line r.1 (sizeText r.2) := by decide

/-- **C167** does not hold for a table without heading: its first dimension is not read. -/
theorem c167_heading_violated (start stop : Text) (pre post : List Text) (s e : Text) (key : Text) (size : Option Nat)
    (table : List (Text × Option Nat)) (hpre : ∀ p ∈ pre, ¬ start <:+: p) (hs : start <:+: s) (he : stop <:+: e)
    (hstop : ∀ r ∈ (key, size) :: table, ¬ stop <:+: line r.1 (sizeText r.2)) (h1 : ∀ r ∈ (key, size) :: table, ¬ colon <:+: r.1)
    (hn : (((key, size) :: table).map Prod.fst).Nodup) :
    ∃ d, readDimensions (pre ++ s :: (((key, size) :: table).map fun r => line r.1 (sizeText r.2)) ++ e :: post) start stop = .ok d ∧
      d key = none := by
  rw [List.map_cons] at hn ⊢
  obtain ⟨d, e1, e2⟩ := c167_dimensions start stop pre post s e (line key (sizeText size)) table hpre hs he
    (hstop _ List.mem_cons_self) (fun r hr => hstop r (List.mem_cons_of_mem _ hr)) (fun r hr => h1 r (List.mem_cons_of_mem _ hr))
    (List.nodup_cons.1 hn).2
  refine ⟨d, e1, ?_⟩
  cases h : d key with
  | none => rfl
  | some x =>
    obtain ⟨size', h3, _⟩ := (e2 key x).1 h
    exact absurd (List.mem_map.2 ⟨_, h3, rfl⟩) (List.nodup_cons.1 hn).1

/-! ### Lists of names -/

theorem split_names (a b : Char) (hab : a ≠ b) : ∀ (name : Text) (names : List Text), (∀ n ∈ name :: names, ¬ [a, b] <:+: n) →
    splitPair a b (name ++ (names.map fun n => a :: b :: n).flatten) = name :: names
  | name, [], h => by
    rw [List.map_nil, List.flatten_nil, List.append_nil, splitPair_free a b name (h name List.mem_cons_self)]
  | name, n :: names, h => by
    rw [List.map_cons, List.flatten_cons, List.cons_append, List.cons_append,
      splitPair_sep a b hab name _ (h name List.mem_cons_self), split_names a b hab n names fun m hm => h m (List.mem_cons_of_mem _ hm)]

/-- **C167**, names: of the paragraphs between the markers the first is read, as names separated by `", "`; further ones are lost. -/
theorem c167_names (start stop : Text) (pre post : List Text) (s e : Text) (name : Text) (names : List Text) (more : List Text)
    (hpre : ∀ p ∈ pre, ¬ start <:+: p) (hs : start <:+: s) (he : stop <:+: e)
    (hstop : ∀ p ∈ (name ++ (names.map fun n => ',' :: ' ' :: n).flatten) :: more, ¬ stop <:+: p)
    (hname : ∀ n ∈ name :: names, ¬ [',', ' '] <:+: n)
    (hstrip : Insitu.Ocean.strip (name ++ (names.map fun n => ',' :: ' ' :: n).flatten) =
      name ++ (names.map fun n => ',' :: ' ' :: n).flatten) :
    readNameList (pre ++ s :: ((name ++ (names.map fun n => ',' :: ' ' :: n).flatten) :: more) ++ e :: post) start stop =
      .ok (name :: names) := by
  rw [readNameList, c167_between start stop pre _ post s e hpre hs hstop he]
  dsimp only
  rw [hstrip, split_names _ _ (by decide) name names hname]

/-- Non-vacuity. -/
example : (∀ n ∈ ["tas".toList, "tasmin".toList], ¬ [',', ' '] <:+: n) ∧
    Insitu.Ocean.strip "tas, tasmin".toList = "tas, tasmin".toList := by decide

end Verif.Eustace.ParseDoc
