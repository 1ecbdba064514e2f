import Verif.Eustace.CppReader.Series
import Verif.Eumopps.Names.Props

/-!
C106: numbers of days and names of files.
-/

namespace Verif.Eustace.CppReader

open Verif Calendar Eumopps.Names

/-! ### Numbers of days -/

/-- What a day number is: days since the first of January 1850. -/
def daysSince (d : Date) : Int := (d.number : Int) - (Date.number ⟨1850, 1, 1⟩ : Int)

theorem number_eq (zone : Int → Int) (d : Date) :
    number zone d = (86400 * daysSince d + (zone (dayOf epoch) - zone (dayOf d))).tdiv 86400 := by
  rw [number, mktime, mktime, daysSince, dayOf, dayOf, epoch]
  generalize Date.number ⟨1850, 1, 1⟩ = e
  congr 1
  ring

/-- **C106**, in every time zone (offsets are below a day): the number of a day after 1850 is exact if and only if the offset on
that day is not greater than it was at the start of 1850, and else it is one too small. -/
theorem c106_number (zone : Int → Int) (hz : ∀ a b, zone a - zone b < 86400) (d : Date) (hd : 0 < daysSince d) :
    (zone (dayOf d) ≤ zone (dayOf epoch) → number zone d = daysSince d) ∧
      (zone (dayOf epoch) < zone (dayOf d) → number zone d = daysSince d - 1) := by
  have h1 := hz (dayOf d) (dayOf epoch)
  have h2 := hz (dayOf epoch) (dayOf d)
  rw [number_eq, Int.tdiv_eq_ediv_of_nonneg (by omega)]
  constructor
  · intro h
    omega
  · intro h
    omega

/-- **C106**: with a constant offset, as in universal time, all numbers are exact, also before 1850. -/
theorem c106_constant (offset : Int) (d : Date) : number (fun _ => offset) d = daysSince d := by
  rw [number_eq, sub_self, add_zero, Int.mul_tdiv_cancel_left _ (by omega)]

/-- **C106 violated**: in a time zone such as that of Berlin, 53 minutes 28 seconds ahead in 1850 and one hour ahead later, the
number of every later day is one too small: it is that of the day before. -/
theorem c106_zone_violated (zone : Int → Int) (h0 : zone (dayOf epoch) = 3208) (d : Date) (h1 : zone (dayOf d) = 3600)
    (hd : 0 < daysSince d) : number zone d = daysSince d - 1 ∧ ∃ e : Date, e.Valid ∧ daysSince e = number zone d := by
  have h : number zone d = daysSince d - 1 := by
    rw [number_eq, h0, h1, Int.tdiv_eq_ediv_of_nonneg (by omega)]
    omega
  have hn := ofNumber_spec (d.number - 1)
  refine ⟨h, Date.ofNumber (d.number - 1), hn.1, ?_⟩
  rw [h]
  rw [daysSince] at hd
  rw [daysSince, daysSince, hn.2]
  omega

/-- **C106**: the date of a day number and the number of a date are inverse to each other. -/
theorem c106_inverse (offset : Int) :
    (∀ n : Int, 0 ≤ dayOf epoch + n → (time n).Valid ∧ number (fun _ => offset) (time n) = n) ∧
      ∀ d : Date, d.Valid → time (number (fun _ => offset) d) = d := by
  constructor
  · intro n hn
    have h := ofNumber_spec (dayOf epoch + n).toNat
    refine ⟨h.1, ?_⟩
    rw [c106_constant, daysSince, time, h.2]
    rw [dayOf, epoch] at hn ⊢
    omega
  · intro d hd
    rw [c106_constant, time, daysSince, dayOf, epoch,
      show ((Date.number ⟨1850, 1, 1⟩ : Int) + ((d.number : Int) - (Date.number ⟨1850, 1, 1⟩ : Int))).toNat = d.number by omega,
      ofNumber_number hd]

/-- Non-vacuity, and the constant of the C library: the epoch of the system, 1970, and a day of 1850. -/
example : Date.number ⟨1970, 1, 1⟩ = 719528 ∧ number (fun _ => 0) ⟨1850, 1, 2⟩ = 1 ∧
    number (fun day => if day = dayOf epoch then 3208 else 3600) ⟨1850, 1, 2⟩ = 0 := by
  refine ⟨by decide +kernel, by decide +kernel, by decide +kernel⟩

/-! ### Names -/

/-- The patterns by which the observations of a day are stored (roses/fullstace/rawbinary/rawbinary_generation.json 373-653). -/
def observationPatterns (source : Source) (observable : Observable) : List (List Char) :=
  [source.name ++ "/%Y/".toList, source.name ++ "_".toList ++ observable.name ++ "_%Y%m%d.bin".toList]

/-- The patterns of the daily table of locations (rawbinary_generation.json 455). -/
def mobilePatterns (source : Source) (observable : Observable) : List (List Char) :=
  [source.name ++ "/%Y/".toList, source.name ++ "_".toList ++ observable.name ++ "_mobilelocations_%Y%m%d.bin".toList]

/-- The patterns of the file of pointers (rawbinary_locationpointers_generation.json 31-256). -/
def pointersPatterns (source : Source) (observable : Observable) : List (List Char) :=
  [source.name ++ "_".toList ++ observable.name ++ "_locationpointers.bin".toList]

/-- The patterns of correlation ranges (rawbinary_generation.json 28-273). -/
def rangesPatterns (source : Source) (observable : Observable) : List (List Char) :=
  [source.name ++ "/localcorrelationranges".toList,
    source.name ++ "_".toList ++ observable.name ++ "_localcorrelationranges.bin".toList]

/-- The patterns of the tables of fixed locations (rawbinary_generation.json 303 and 332). -/
def satelliteLookupPatterns : List (List Char) := ["locationlookup_satellite".toList, "locationlookup_satellite.bin".toList]

/-- See `satelliteLookupPatterns`. -/
def stationLookupPatterns : List (List Char) :=
  ["insitu_land/locationlookup_insitu_land".toList, "locationlookup_insitu_land.bin".toList]

theorem source_clean (source : Source) : ∀ x ∈ source.name, x ≠ '%' ∧ x ≠ '/' := by cases source <;> decide

theorem observable_clean (observable : Observable) : ∀ x ∈ observable.name, x ≠ '%' ∧ x ≠ '/' ∧ x ≠ '_' := by
  cases observable <;> decide

theorem build_eq {p r : List Char} {t : DateTime} (h : Expands (fields t) p r) : buildFromPattern p t = r :=
  expands_unique (c16_substitution p t) h

theorem expands_plain (t : DateTime) (v : List Char) (hv : ∀ x ∈ v, x ≠ '%') : Expands (fields t) v v := by
  have := Expands.clean (f := fields t) hv .nil
  rwa [List.append_nil] at this

theorem build_year (source : Source) (t : DateTime) :
    buildFromPattern (source.name ++ "/%Y/".toList) t = source.name ++ "/".toList ++ pad 4 t.date.year ++ "/".toList := by
  apply build_eq
  have h : Expands (fields t) (source.name ++ ("/".toList ++ ('%' :: 'Y' :: "/".toList)))
      (source.name ++ ("/".toList ++ (pad 4 t.date.year ++ "/".toList))) :=
    .clean (fun x hx => (source_clean source x hx).1) (.clean (by decide) (.field rfl (expands_plain t _ (by decide))))
  simpa using h

theorem build_day (source : Source) (observable : Observable) (text : List Char) (ht : ∀ x ∈ text, x ≠ '%') (t : DateTime) :
    buildFromPattern (source.name ++ "_".toList ++ observable.name ++ text ++ "%Y%m%d.bin".toList) t =
      source.name ++ "_".toList ++ observable.name ++ text ++ dateText t.date ++ ".bin".toList := by
  apply build_eq
  have h : Expands (fields t) (source.name ++ ("_".toList ++ (observable.name ++ (text ++ ('%' :: 'Y' :: '%' :: 'm' :: '%' :: 'd'
        :: ".bin".toList)))))
      (source.name ++ ("_".toList ++ (observable.name ++ (text ++ (pad 4 t.date.year ++ (pad 2 t.date.month ++
        (pad 2 t.date.day ++ ".bin".toList))))))) :=
    .clean (fun x hx => (source_clean source x hx).1) (.clean (by decide) (.clean (fun x hx => (observable_clean observable x hx).1)
      (.clean ht (.field rfl (.field rfl (.field rfl (expands_plain t _ (by decide))))))))
  rw [dateText]
  simpa using h

theorem source_head (source : Source) (rest : List Char) : (source.name ++ rest).head? ≠ some '/' ∧ source.name ++ rest ≠ [] := by
  have h : source.name.head? ≠ some '/' ∧ source.name ≠ [] := by cases source <;> decide
  exact ⟨by rw [List.head?_append_of_ne_nil _ h.2]; exact h.1, by simp [h.2]⟩

theorem take_dateText (d : Date) : (dateText d).take 4 = pad 4 d.year := by
  rw [dateText, List.append_assoc, List.take_left' (pad_length _ _)]

theorem join_year (source : Source) (year rest : List Char) (h : rest.head? ≠ some '/') :
    join2 (source.name ++ "/".toList ++ year ++ "/".toList) rest = source.name ++ "/".toList ++ year ++ "/".toList ++ rest := by
  rw [join2, if_neg h, if_pos]
  right
  rw [getLast?_append_ne _ (by decide)]
  rfl

/-- **C106**, for all sources, observables and days: the reader looks for the observations of a day, and for the locations of
ships and buoys on it, at the name which the Python program gives to them, below the base directory. -/
theorem c106_day_names (base : List Char) (source : Source) (observable : Observable) (day : Int) (t : DateTime)
    (ht : t.date = time day) :
    (∃ name, filename (observationPatterns source observable) t = .ok name ∧
        observationPath base source observable day = base ++ "/".toList ++ name) ∧
      ∃ name, filename (mobilePatterns source observable) t = .ok name ∧
        mobilePath base source observable day = base ++ "/".toList ++ name := by
  have h1 := build_day source observable "_".toList (by decide) t
  have h2 := build_day source observable "_mobilelocations_".toList (by decide) t
  have e1 : source.name ++ "_".toList ++ observable.name ++ "_%Y%m%d.bin".toList =
      source.name ++ "_".toList ++ observable.name ++ "_".toList ++ "%Y%m%d.bin".toList := by
    rw [List.append_assoc (source.name ++ "_".toList ++ observable.name)]; rfl
  have e2 : source.name ++ "_".toList ++ observable.name ++ "_mobilelocations_%Y%m%d.bin".toList =
      source.name ++ "_".toList ++ observable.name ++ "_mobilelocations_".toList ++ "%Y%m%d.bin".toList := by
    rw [List.append_assoc (source.name ++ "_".toList ++ observable.name)]; rfl
  constructor
  · refine ⟨source.name ++ "/".toList ++ pad 4 t.date.year ++ "/".toList ++
      (source.name ++ "_".toList ++ observable.name ++ "_".toList ++ dateText t.date ++ ".bin".toList), ?_, ?_⟩
    · rw [filename, observationPatterns, List.map_cons, List.map_cons, List.map_nil, build_year, e1, h1, joinAll, List.foldl_cons,
        List.foldl_nil, join_year]
      simp only [List.append_assoc]
      exact (source_head source _).1
    · rw [observationPath, ← ht, take_dateText]
      simp only [List.append_assoc]
  · refine ⟨source.name ++ "/".toList ++ pad 4 t.date.year ++ "/".toList ++
      (source.name ++ "_".toList ++ observable.name ++ "_mobilelocations_".toList ++ dateText t.date ++ ".bin".toList), ?_, ?_⟩
    · rw [filename, mobilePatterns, List.map_cons, List.map_cons, List.map_nil, build_year, e2, h2, joinAll, List.foldl_cons,
        List.foldl_nil, join_year]
      simp only [List.append_assoc]
      exact (source_head source _).1
    · rw [mobilePath, ← ht, take_dateText]
      simp only [List.append_assoc]

/-- **C106**: so it is for the file of pointers. -/
theorem c106_pointers_name (base : List Char) (source : Source) (observable : Observable) (t : DateTime) :
    ∃ name, filename (pointersPatterns source observable) t = .ok name ∧
      pointersPath base source observable = base ++ "/".toList ++ name := by
  refine ⟨source.name ++ "_".toList ++ observable.name ++ "_locationpointers.bin".toList, ?_, ?_⟩
  · rw [filename, pointersPatterns, List.map_cons, List.map_nil, joinAll, List.foldl_nil, build_eq]
    apply expands_plain
    intro x hx
    simp only [List.mem_append] at hx
    rcases hx with ((hx | hx) | hx) | hx
    · exact (source_clean source x hx).1
    · revert x; decide
    · exact (observable_clean observable x hx).1
    · revert x; decide
  · rw [pointersPath]
    simp only [List.append_assoc]

theorem dateText_length (d : Date) : (dateText d).length = 8 := by
  rw [dateText, List.length_append, List.length_append, pad_length, pad_length, pad_length]

theorem dateText_inj {a b : Date} (ha : a.Valid) (hb : b.Valid) (hya : a.year < 10000) (hyb : b.year < 10000)
    (h : dateText a = dateText b) : a = b := by
  rw [dateText, dateText] at h
  obtain ⟨h1, h2⟩ := List.append_inj h (by rw [List.length_append, List.length_append, pad_length, pad_length, pad_length, pad_length])
  obtain ⟨h3, h4⟩ := List.append_inj h1 (by rw [pad_length, pad_length])
  have hm : ∀ d : Date, d.Valid → d.month < 10 ^ 2 ∧ d.day < 10 ^ 2 := by
    intro d hd
    have h28 : daysInMonth d.year d.month ≤ 31 := by unfold daysInMonth; split <;> split <;> omega
    exact ⟨by have := hd.2.1; omega, by have := hd.2.2.2; omega⟩
  have e1 := pad_inj 4 (by omega) (by omega) h3
  have e2 := pad_inj 2 (hm a ha).1 (hm b hb).1 h4
  have e3 := pad_inj 2 (hm a ha).2 (hm b hb).2 h2
  cases a
  cases b
  simp only at e1 e2 e3
  rw [e1, e2, e3]

theorem split_unique {α : Type} (c : α) (a a' b b' : List α) (ha : ∀ x ∈ a, x ≠ c) (ha' : ∀ x ∈ a', x ≠ c)
    (h : a ++ c :: b = a' ++ c :: b') : a = a' ∧ b = b' := by
  induction a generalizing a' with
  | nil =>
    cases a' with
    | nil => exact ⟨rfl, (List.cons.inj h).2⟩
    | cons x a' => exact absurd (List.cons.inj h).1.symm (ha' x List.mem_cons_self)
  | cons x a ih =>
    cases a' with
    | nil => exact absurd (List.cons.inj h).1 (ha x List.mem_cons_self)
    | cons y a' =>
      obtain ⟨h1, h2⟩ := List.cons.inj h
      obtain ⟨h3, h4⟩ := ih a' (fun z hz => ha z (List.mem_cons_of_mem _ hz)) (fun z hz => ha' z (List.mem_cons_of_mem _ hz)) h2
      exact ⟨by rw [h1, h3], h4⟩

theorem source_inj {a b : Source} (h : a.name = b.name) : a = b := by
  cases a <;> cases b <;> first | rfl | exact absurd h (by decide)

theorem observable_inj {a b : Observable} (h : a.name = b.name) : a = b := by
  cases a <;> cases b <;> first | rfl | exact absurd h (by decide)

/-- **C106**: different sources, observables or days never share a file, as long as years have four digits. -/
theorem c106_distinct (base : List Char) (s s' : Source) (o o' : Observable) (d d' : Int) (hd : 0 ≤ dayOf epoch + d)
    (hd' : 0 ≤ dayOf epoch + d') (hy : (time d).year < 10000) (hy' : (time d').year < 10000)
    (h : observationPath base s o d = observationPath base s' o' d') : s = s' ∧ o = o' ∧ d = d' := by
  rw [observationPath, observationPath] at h
  simp only [List.append_assoc] at h
  have h0 : s.name ++ '/' :: ((dateText (time d)).take 4 ++ ("/".toList ++ (s.name ++ ("_".toList ++ (o.name ++ ("_".toList ++
      (dateText (time d) ++ ".bin".toList))))))) = s'.name ++ '/' :: ((dateText (time d')).take 4 ++ ("/".toList ++ (s'.name ++
        ("_".toList ++ (o'.name ++ ("_".toList ++ (dateText (time d') ++ ".bin".toList))))))) :=
    List.append_cancel_left (List.append_cancel_left h)
  obtain ⟨h1, h2⟩ := split_unique '/' _ _ _ _ (fun x hx => (source_clean s x hx).2) (fun x hx => (source_clean s' x hx).2) h0
  have hs := source_inj h1
  rw [hs] at h2
  obtain ⟨_, h3⟩ := List.append_inj h2 (by rw [List.length_take, List.length_take, dateText_length, dateText_length])
  have h4 : o.name ++ '_' :: (dateText (time d) ++ ".bin".toList) = o'.name ++ '_' :: (dateText (time d') ++ ".bin".toList) :=
    List.append_cancel_left (List.append_cancel_left (List.append_cancel_left h3))
  obtain ⟨h5, h6⟩ := split_unique '_' _ _ _ _ (fun x hx => (observable_clean o x hx).2.2)
    (fun x hx => (observable_clean o' x hx).2.2) h4
  have h7 := dateText_inj (((c106_inverse 0).1 d hd).1) (((c106_inverse 0).1 d' hd').1) hy hy' (List.append_cancel_right h6)
  refine ⟨hs, observable_inj h5, ?_⟩
  rw [← ((c106_inverse 0).1 d hd).2, h7, ((c106_inverse 0).1 d' hd').2]

/-- **C106 violated**: the correlation ranges are generated in a directory of each source, and the tables of fixed locations in
directories of their own; the reader looks for all of these in the base directory, where they are not. -/
theorem c106_tables_violated (base : List Char) (source : Source) (observable : Observable) (t : DateTime) :
    (∃ name, filename (rangesPatterns source observable) t = .ok name ∧
        rangesPath base source observable ≠ base ++ "/".toList ++ name) ∧
      (∃ name, filename satelliteLookupPatterns t = .ok name ∧
        lookupPath base "satellite".toList ≠ base ++ "/".toList ++ name) ∧
      ∃ name, filename stationLookupPatterns t = .ok name ∧
        lookupPath base "insitu_land".toList ≠ base ++ "/".toList ++ name := by
  have plain : ∀ p : List Char, (∀ x ∈ p, x ≠ '%') → buildFromPattern p t = p := fun p hp => build_eq (expands_plain t p hp)
  refine ⟨⟨source.name ++ "/localcorrelationranges".toList ++ '/' :: (source.name ++ "_".toList ++ observable.name ++
      "_localcorrelationranges.bin".toList), ?_, ?_⟩,
    ⟨"locationlookup_satellite".toList ++ '/' :: "locationlookup_satellite.bin".toList, ?_, ?_⟩,
    ⟨"insitu_land/locationlookup_insitu_land".toList ++ '/' :: "locationlookup_insitu_land.bin".toList, ?_, ?_⟩⟩
  · rw [filename, rangesPatterns, List.map_cons, List.map_cons, List.map_nil, plain, plain, joinAll, List.foldl_cons,
      List.foldl_nil, join2, if_neg, if_neg]
    · rintro (h | h)
      · exact (source_head source _).2 h
      · rw [getLast?_append_ne _ (by decide)] at h
        revert h
        decide
    · simp only [List.append_assoc]
      exact (source_head source _).1
    · intro x hx
      simp only [List.mem_append] at hx
      rcases hx with ((hx | hx) | hx) | hx
      · exact (source_clean source x hx).1
      · revert x; decide
      · exact (observable_clean observable x hx).1
      · revert x; decide
    · intro x hx
      rcases List.mem_append.1 hx with hx | hx
      · exact (source_clean source x hx).1
      · exact (by decide : ∀ x ∈ "/localcorrelationranges".toList, x ≠ '%') x hx
  · intro h
    rw [rangesPath] at h
    have := congrArg List.length h
    simp only [List.length_append, List.length_cons] at this
    have e1 : "/".toList.length = 1 := rfl
    have e2 : "/localcorrelationranges".toList.length = 23 := rfl
    omega
  · rw [filename, satelliteLookupPatterns, List.map_cons, List.map_cons, List.map_nil, plain _ (by decide), plain _ (by decide)]
    decide
  · intro h
    have := congrArg List.length h
    rw [lookupPath] at this
    simp only [List.length_append] at this
    revert this
    simp
  · rw [filename, stationLookupPatterns, List.map_cons, List.map_cons, List.map_nil, plain _ (by decide), plain _ (by decide)]
    decide
  · intro h
    have := congrArg List.length h
    rw [lookupPath] at this
    simp only [List.length_append] at this
    revert this
    simp

end Verif.Eustace.CppReader
