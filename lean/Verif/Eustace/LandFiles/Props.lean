import Verif.Eustace.LandFiles.Dates
import Verif.Eustace.LandModel.Props
import Mathlib.Data.List.SplitOn

/-! Dates in names of files, and files of coefficients. -/

namespace Verif.Eustace.LandFiles

open Verif Verif.Calendar Verif.Eustace.LandModel

theorem strmid_middle (a b c : Text) (n : ℕ) (ha : a.length = n) : strmid (a ++ b ++ c) n b.length = b := by
  unfold strmid
  rw [List.append_assoc, List.drop_append_of_le_length (by omega), List.drop_of_length_le (by omega), List.nil_append,
    List.take_append_of_le_length (by omega), List.take_of_length_le (by omega)]

/-- Names of files with 21 characters before the date give the days of their dates. -/
theorem c181_vegetation_days (files : List (Text × Date × Text)) (h : ∀ f ∈ files, f.1.length = 21 ∧ f.2.1.Valid ∧ f.2.1.year ≤ 9999) :
    fvcDays (files.map fun f => f.1 ++ dateText f.2.1 ++ f.2.2) = .ok (files.map fun f => dayNumber f.2.1) := by
  induction files with
  | nil => rfl
  | cons f rest ih =>
    obtain ⟨h1, h2, h3⟩ := h f List.mem_cons_self
    have hs : strmid (f.1 ++ dateText f.2.1 ++ f.2.2) 21 8 = dateText f.2.1 := by
      have := strmid_middle f.1 (dateText f.2.1) f.2.2 21 h1
      rwa [dateText_length] at this
    simp only [List.map_cons, fvcDays, hs, c181_julian_day f.2.1 h2 h3, ih fun g hg => h g (List.mem_cons_of_mem _ hg)]

/-- A name without eight characters at that place stops the program. -/
theorem c181_vegetation_name (name : Text) (names : List Text) (hmem : name ∈ names) (h : name.length < 29) :
    ∃ e, fvcDays names = .error e := by
  have hc : ∀ s : Text, (strcompress s).length ≤ s.length := by
    intro s
    induction s with
    | nil => simp [strcompress]
    | cons c s ih =>
      rw [strcompress]
      by_cases hb : blank c = true
      · rw [if_pos hb]
        split
        · rename_i t ht
          rw [ht] at ih
          simp only [List.length_cons] at ih ⊢
          omega
        · simp only [List.length_cons]; omega
      · rw [if_neg hb]
        simp only [List.length_cons]; omega
  induction names with
  | nil => simp at hmem
  | cons n rest ih =>
    rcases List.mem_cons.1 hmem with hn | hn
    · subst hn
      have : yyyymmddToJd (strmid name 21 8) = .error .other := by
        unfold yyyymmddToJd
        have h1 := hc (strmid name 21 8)
        have h2 : (strmid name 21 8).length ≤ name.length - 21 := by
          unfold strmid
          rw [List.length_take, List.length_drop]
          omega
        simp only
        rw [if_pos (by omega)]
      simp only [fvcDays, this]
      exact ⟨_, rfl⟩
    · obtain ⟨e, he⟩ := ih hn
      simp only [fvcDays, he]
      cases yyyymmddToJd (strmid n 21 8) with
      | ok d => exact ⟨_, rfl⟩
      | error e' => exact ⟨_, rfl⟩

/-- A text without blanks which has not eight characters is refused. -/
theorem c181_date_refused (s : Text) (hb : ∀ c ∈ s, blank c = false) (h : s.length ≠ 8) : yyyymmddToJd s = .error .other := by
  unfold yyyymmddToJd
  simp only [strcompress_eq s hb]
  rw [if_pos h]

/-- The check at the start asks for what the choice of the file needs: a day less than ten days away. -/
theorem c181_vegetation_found (today : ℤ) (files : List (ℤ × Fvc)) :
    anyFvc today (files.map Prod.fst) = true ↔ ∃ f, nearestFvc today files = some f := by
  have hany : anyFvc today (files.map Prod.fst) = true ↔ ∃ g ∈ files, |today - g.1| < 10 := by
    simp only [anyFvc, List.any_eq_true, List.mem_map, decide_eq_true_eq]
    constructor
    · rintro ⟨d, ⟨g, hg, rfl⟩, h1, h2⟩
      exact ⟨g, hg, by rw [abs_lt]; constructor <;> omega⟩
    · rintro ⟨g, hg, h⟩
      rw [abs_lt] at h
      exact ⟨g.1, ⟨g, hg, rfl⟩, by omega, by omega⟩
  rw [hany]
  constructor
  · intro h
    obtain ⟨f, hf⟩ := nearest_exists today files h
    exact ⟨f, nearest_eq today files f hf⟩
  · rintro ⟨f, hf⟩
    unfold nearestFvc at hf
    simp only at hf
    split at hf
    · rename_i g hg
      split_ifs at hf with hlt
      have h1 := List.mem_of_find?_eq_some hg
      have h2 := List.find?_some hg
      simp only [decide_eq_true_eq] at h2
      exact ⟨g, h1, by rw [h2]; exact hlt⟩
    · simp at hf

example : anyFvc (dayNumber ⟨2010, 3, 22⟩) [dayNumber ⟨2010, 3, 22⟩] = true := by
  simp [anyFvc]

/-- The words of a line: what is between blanks. -/
def wordsOf (line : Text) : List Text := (line.splitOnP blank).filter fun w => !w.isEmpty

theorem split_eq : ∀ (s word : Text), split word s = ((s.splitOnP blank).modifyHead (word ++ ·)).filter fun w => !w.isEmpty
  | [], word => by
    simp only [split, List.splitOnP_nil, List.modifyHead_cons, List.append_nil]
    by_cases h : word = [] <;> simp [h]
  | c :: s, word => by
    rw [split, List.splitOnP_cons]
    by_cases hb : blank c = true
    · rw [if_pos hb, if_pos hb, split_eq s []]
      have hid : (s.splitOnP blank).modifyHead ([] ++ ·) = s.splitOnP blank := by
        cases s.splitOnP blank <;> simp
      rw [hid, List.modifyHead_cons, List.append_nil]
      by_cases h : word = [] <;> simp [h]
    · rw [if_neg hb, if_neg hb, split_eq s (word ++ [c]), List.modifyHead_modifyHead]
      congr 2
      funext t
      simp

theorem compress_eq : ∀ (s : Text), ∃ h t t', s.splitOnP blank = h :: t ∧ (strcompress s).splitOnP blank = h :: t' ∧
    (t.filter fun w => !w.isEmpty) = t'.filter fun w => !w.isEmpty
  | [] => ⟨[], [], [], by simp, by simp [strcompress], rfl⟩
  | c :: s => by
    obtain ⟨h, t, t', h1, h2, h3⟩ := compress_eq s
    have hsp : blank ' ' = true := by decide
    by_cases hb : blank c = true
    · rw [List.splitOnP_cons, if_pos hb, h1, strcompress, if_pos hb]
      split
      · rename_i u hu
        rw [hu, List.splitOnP_cons, if_pos hsp] at h2
        obtain ⟨h4, h5⟩ := List.cons.inj h2
        refine ⟨[], h :: t, t', rfl, by rw [List.splitOnP_cons, if_pos hsp, h5], ?_⟩
        rw [← h4]
        simpa using h3
      · refine ⟨[], h :: t, h :: t', rfl, by rw [List.splitOnP_cons, if_pos hsp, h2], ?_⟩
        simp only [List.filter_cons, h3]
    · refine ⟨c :: h, t, t', ?_, ?_, h3⟩
      · rw [List.splitOnP_cons, if_neg hb, h1, List.modifyHead_cons]
      · rw [strcompress, if_neg hb, List.splitOnP_cons, if_neg hb, h2, List.modifyHead_cons]

/-- A line is split into its words. -/
theorem c181_words (line : Text) : split [] (strcompress line) = wordsOf line := by
  obtain ⟨h, t, t', h1, h2, h3⟩ := compress_eq line
  rw [split_eq, wordsOf, h1, h2]
  simp only [List.modifyHead_cons, List.nil_append, List.filter_cons, h3]

example : wordsOf [' ', 'a', 'b', ' ', '\t', 'c'] = [['a', 'b'], ['c']] := by
  simp [wordsOf, List.splitOnP_cons, List.splitOnP_nil, blank]

/-- Lines which are not of the header. -/
def body (head : Text) (lines : List Text) : List Text := lines.filter fun l => !decide (strmid l 0 1 = head)

theorem read_data (head : Text) (k : ℕ) (after : List Text) (hafter : after = [] ∨ ∃ b rest, after = b :: rest ∧ b.all blank = true) :
    ∀ (L : List Text) (r : Read), (∀ l ∈ L, l.all blank = false) → (∃ n, r.names = some n) →
      (∀ l ∈ body head L, (wordsOf l).length = k) →
      (readLines head r (L ++ after)).data = r.data ++ (body head L).flatMap wordsOf ∧
      (readLines head r (L ++ after)).count = r.count + (body head L).length ∧
      (readLines head r (L ++ after)).last = if body head L = [] then r.last else k
  | [], r, _, _, _ => by
    have : readLines head r ([] ++ after) = r := by
      rcases hafter with h | ⟨b, rest, h, hb⟩
      · rw [h]; rfl
      · rw [h, List.nil_append, readLines, if_pos hb]
    rw [this]
    simp [body]
  | l :: L, r, hb, ⟨n, hn⟩, hk => by
    have hl := hb l List.mem_cons_self
    have hL : ∀ l ∈ L, l.all blank = false := fun l hl => hb l (List.mem_cons_of_mem _ hl)
    rw [List.cons_append, readLines, if_neg (by rw [hl]; simp)]
    by_cases hh : strmid l 0 1 = head
    · have hbody : body head (l :: L) = body head L := by simp [body, hh]
      rw [if_pos hh, hbody]
      rw [hbody] at hk
      exact read_data head k after hafter L { r with header := r.header ++ [l] } hL ⟨n, hn⟩ hk
    · have hbody : body head (l :: L) = l :: body head L := by simp [body, hh]
      rw [if_neg hh, hbody]
      rw [hbody] at hk
      simp only [hn]
      obtain ⟨i1, i2, i3⟩ := read_data head k after hafter L
        { r with data := r.data ++ split [] (strcompress l), count := r.count + 1, last := (split [] (strcompress l)).length } hL
        ⟨n, hn⟩ fun x hx => hk x (List.mem_cons_of_mem _ hx)
      simp only [hn] at i1 i2 i3
      rw [i1, i2, i3]
      simp only [c181_words, List.flatMap_cons, List.append_assoc, List.length_cons]
      refine ⟨trivial, by omega, ?_⟩
      by_cases he : body head L = []
      · simp [he, hk l List.mem_cons_self]
      · simp [he]

theorem read_all (head : Text) (k : ℕ) (after : List Text) (hafter : after = [] ∨ ∃ b rest, after = b :: rest ∧ b.all blank = true)
    (label : Text) (rows : List Text) (hk : ∀ l ∈ rows, (wordsOf l).length = k) :
    ∀ (L : List Text) (r : Read), (∀ l ∈ L, l.all blank = false) → r.names = none → body head L = label :: rows →
      (readLines head r (L ++ after)).data = r.data ++ rows.flatMap wordsOf ∧
      (readLines head r (L ++ after)).count = r.count + rows.length ∧
      (readLines head r (L ++ after)).last = if rows = [] then r.last else k
  | [], r, _, _, hrows => by simp [body] at hrows
  | l :: L, r, hb, hn, hrows => by
    have hl := hb l List.mem_cons_self
    have hL : ∀ l ∈ L, l.all blank = false := fun l hl => hb l (List.mem_cons_of_mem _ hl)
    rw [List.cons_append, readLines, if_neg (by rw [hl]; simp)]
    by_cases hh : strmid l 0 1 = head
    · have hbody : body head (l :: L) = body head L := by simp [body, hh]
      rw [if_pos hh]
      rw [hbody] at hrows
      exact read_all head k after hafter label rows hk L { r with header := r.header ++ [l] } hL hn hrows
    · have hbody : body head (l :: L) = l :: body head L := by simp [body, hh]
      rw [if_neg hh]
      rw [hbody] at hrows
      obtain ⟨-, hr⟩ := List.cons.inj hrows
      simp only [hn]
      have := read_data head k after hafter L { r with names := some (split [] (strcompress l)) } hL ⟨_, rfl⟩ (by rw [hr]; exact hk)
      rw [hr] at this
      exact this

theorem chunks (k : ℕ) : ∀ (rows : List Text), (∀ l ∈ rows, (wordsOf l).length = k) →
    (rows.flatMap wordsOf).length = rows.length * k ∧
    ((List.range rows.length).map fun j => ((rows.flatMap wordsOf).drop (j * k)).take k) = rows.map wordsOf
  | [], _ => by simp
  | l :: rows, h => by
    obtain ⟨h1, h2⟩ := chunks k rows fun x hx => h x (List.mem_cons_of_mem _ hx)
    have hl := h l List.mem_cons_self
    constructor
    · simp only [List.flatMap_cons, List.length_append, hl, h1, List.length_cons]; ring
    · simp only [List.flatMap_cons, List.length_cons, List.range_succ_eq_map, List.map_cons, List.map_map]
      refine congrArg₂ List.cons ?_ ?_
      · rw [Nat.zero_mul, List.drop_zero, List.take_append_of_le_length (by omega), List.take_of_length_le (by omega)]
      · rw [← h2]
        refine List.map_congr_left fun j _ => ?_
        simp only [Function.comp_apply, Nat.succ_eq_add_one]
        rw [show (j + 1) * k = (wordsOf l).length + j * k by rw [hl]; ring, List.drop_length_add_append]

/-- `read_asc`: the rows are the words of the lines after the labels, up to the first line of blanks, without those of the header. -/
theorem c181_table (head : Text) (k : ℕ) (hk0 : 0 < k) (L after : List Text) (hL : ∀ l ∈ L, l.all blank = false)
    (hafter : after = [] ∨ ∃ b rest, after = b :: rest ∧ b.all blank = true) (label : Text) (rows : List Text)
    (hbody : (L.filter fun l => !decide (l.take 1 = head)) = label :: rows) (hne : rows ≠ []) (hk : ∀ l ∈ rows, (wordsOf l).length = k) :
    readAsc head (L ++ after) = .ok (rows.map wordsOf) := by
  have hb : body head L = label :: rows := by rw [← hbody]; rfl
  obtain ⟨h1, h2, h3⟩ := read_all head k after hafter label rows hk L ⟨[], none, [], 0, 0⟩ hL rfl hb
  obtain ⟨c1, c2⟩ := chunks k rows hk
  have hlen : 0 < rows.length := List.length_pos_iff.2 hne
  unfold readAsc
  simp only [h1, h2, h3, List.nil_append, Nat.zero_add, if_neg hne]
  rw [if_neg (by omega), c1, Nat.mul_div_cancel _ hk0, if_neg (by simp [Nat.mul_comm]), c2]

theorem read_data_any (head : Text) (after : List Text) (hafter : after = [] ∨ ∃ b rest, after = b :: rest ∧ b.all blank = true) :
    ∀ (L : List Text) (r : Read), (∀ l ∈ L, l.all blank = false) → (∃ n, r.names = some n) →
      (readLines head r (L ++ after)).data = r.data ++ (body head L).flatMap wordsOf
  | [], r, _, _ => by
    have : readLines head r ([] ++ after) = r := by
      rcases hafter with h | ⟨b, rest, h, hb⟩
      · rw [h]; rfl
      · rw [h, List.nil_append, readLines, if_pos hb]
    rw [this]
    simp [body]
  | l :: L, r, hb, ⟨n, hn⟩ => by
    have hl := hb l List.mem_cons_self
    have hL : ∀ l ∈ L, l.all blank = false := fun l hl => hb l (List.mem_cons_of_mem _ hl)
    rw [List.cons_append, readLines, if_neg (by rw [hl]; simp)]
    by_cases hh : strmid l 0 1 = head
    · have hbody : body head (l :: L) = body head L := by simp [body, hh]
      rw [if_pos hh, hbody]
      exact read_data_any head after hafter L { r with header := r.header ++ [l] } hL ⟨n, hn⟩
    · have hbody : body head (l :: L) = l :: body head L := by simp [body, hh]
      rw [if_neg hh, hbody]
      simp only [hn]
      have i1 := read_data_any head after hafter L
        { r with data := r.data ++ split [] (strcompress l), count := r.count + 1, last := (split [] (strcompress l)).length } hL
        ⟨n, hn⟩
      simp only [hn] at i1
      rw [i1]
      simp only [c181_words, List.flatMap_cons, List.append_assoc]

theorem read_all_any (head : Text) (after : List Text) (hafter : after = [] ∨ ∃ b rest, after = b :: rest ∧ b.all blank = true)
    (label : Text) (rows : List Text) : ∀ (L : List Text) (r : Read), (∀ l ∈ L, l.all blank = false) → r.names = none →
      body head L = label :: rows → (readLines head r (L ++ after)).data = r.data ++ rows.flatMap wordsOf
  | [], r, _, _, hrows => by simp [body] at hrows
  | l :: L, r, hb, hn, hrows => by
    have hl := hb l List.mem_cons_self
    have hL : ∀ l ∈ L, l.all blank = false := fun l hl => hb l (List.mem_cons_of_mem _ hl)
    rw [List.cons_append, readLines, if_neg (by rw [hl]; simp)]
    by_cases hh : strmid l 0 1 = head
    · have hbody : body head (l :: L) = body head L := by simp [body, hh]
      rw [if_pos hh]
      rw [hbody] at hrows
      exact read_all_any head after hafter label rows L { r with header := r.header ++ [l] } hL hn hrows
    · have hbody : body head (l :: L) = l :: body head L := by simp [body, hh]
      rw [if_neg hh]
      rw [hbody] at hrows
      obtain ⟨-, hr⟩ := List.cons.inj hrows
      simp only [hn]
      have := read_data_any head after hafter L { r with names := some (split [] (strcompress l)) } hL ⟨_, rfl⟩
      rw [hr] at this
      exact this

theorem pieces (l : ℕ) : ∀ (q : ℕ) (data : List Text), data.length = q * l →
    ((List.range q).map fun j => (data.drop (j * l)).take l).flatten = data
  | 0, data, h => by
    have : data = [] := List.length_eq_zero_iff.1 (by simpa using h)
    simp [this]
  | q + 1, data, h => by
    have hd : (data.drop l).length = q * l := by rw [List.length_drop, h]; ring_nf; omega
    have ih := pieces l q (data.drop l) hd
    rw [List.range_succ_eq_map, List.map_cons, List.map_map, List.flatten_cons, Nat.zero_mul, List.drop_zero]
    have hmap : ((List.range q).map ((fun j => (data.drop (j * l)).take l) ∘ Nat.succ)) =
        (List.range q).map fun j => ((data.drop l).drop (j * l)).take l := by
      refine List.map_congr_left fun j _ => ?_
      simp only [Function.comp_apply, Nat.succ_eq_add_one, List.drop_drop]
      rw [show (j + 1) * l = l + j * l by ring]
    rw [hmap, ih, List.take_append_drop]

/-- No number of a table that is taken is lost, or read twice, whatever the numbers of columns. -/
theorem c181_nothing_lost (head : Text) (L after : List Text) (hL : ∀ l ∈ L, l.all blank = false)
    (hafter : after = [] ∨ ∃ b rest, after = b :: rest ∧ b.all blank = true) (label : Text) (rows : List Text)
    (hbody : (L.filter fun l => !decide (l.take 1 = head)) = label :: rows) (data : List (List Text))
    (h : readAsc head (L ++ after) = .ok data) : data.flatten = rows.flatMap wordsOf := by
  have hb : body head L = label :: rows := by rw [← hbody]; rfl
  have h1 := read_all_any head after hafter label rows L ⟨[], none, [], 0, 0⟩ hL rfl hb
  unfold readAsc at h
  simp only [h1, List.nil_append] at h
  split_ifs at h with h2 h3
  simp only [Except.ok.injEq] at h
  rw [← h]
  exact pieces _ _ _ (by rw [Nat.mul_comm]; exact (not_not.1 h3).symm)

/-- The coefficients are the first seven words of the first two lines of data, and their uncertainty is the eighth. -/
theorem c181_coefficients (head : Text) (k : ℕ) (hk8 : 8 ≤ k) (L after : List Text) (hL : ∀ l ∈ L, l.all blank = false)
    (hafter : after = [] ∨ ∃ b rest, after = b :: rest ∧ b.all blank = true) (label : Text) (rows : List Text)
    (hbody : (L.filter fun l => !decide (l.take 1 = head)) = label :: rows) (hk : ∀ l ∈ rows, (wordsOf l).length = k)
    (i : ℕ) (row : Text) (hi : rows[i]? = some row) :
    ∃ data u, readAsc head (L ++ after) = .ok data ∧ (wordsOf row)[7]? = some u ∧ coefficients data i = .ok ((wordsOf row).take 7, u) := by
  have hne : rows ≠ [] := by rintro rfl; simp at hi
  have hrow := hk row (List.mem_of_getElem? hi)
  refine ⟨_, (wordsOf row)[7]'(by omega), c181_table head k (by omega) L after hL hafter label rows hbody hne hk,
    List.getElem?_eq_getElem (by omega), ?_⟩
  unfold coefficients
  rw [List.getElem?_map, hi]
  simp only [Option.map_some]
  rw [List.getElem?_eq_getElem (by omega)]

/-- Lines of different numbers of columns are not refused: numbers of one line are then rows of their own. -/
theorem c181_ragged_violated : readAsc ['#'] [['#'], ['a', ' ', 'b'], ['1', ' ', '2', ' ', '3', ' ', '4'], ['5', ' ', '6']] =
    .ok [[['1'], ['2']], [['3'], ['4']], [['5'], ['6']]] := by
  decide

/-- A line of the header with a blank before its mark is taken for the labels, and the labels for data. -/
theorem c181_header_violated : readAsc ['#'] [[' ', '#'], ['a', ' ', 'b'], ['1', ' ', '2']] =
    .ok [[['a'], ['b']], [['1'], ['2']]] := by
  decide

example : readAsc ['#'] [['#', 'x'], ['a', ' ', 'b'], ['1', ' ', ' ', '2'], ['#'], ['3', ' ', '4'], [' '], ['5']] =
    .ok [[['1'], ['2']], [['3'], ['4']]] := by
  decide

end Verif.Eustace.LandFiles
