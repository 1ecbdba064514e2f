import Verif.Eustace.Insitu.Spec
import Mathlib.Tactic.Ring
import Mathlib.Tactic.NormNum
import Mathlib.Data.List.GetD
import Mathlib.Data.List.TakeWhile

/-! C132: which measurements of stations over land are used. -/

namespace Verif.Eustace.Insitu

open Verif Verif.Eustace.RawBinary Spec

theorem ravel_length {α : Type} (g : Grid α) : g.ravel.length = g.rows * g.cols := by
  rw [Grid.ravel, List.length_map, List.length_range]

theorem ravel_get {α : Type} (g : Grid α) (i j : Nat) (hi : i < g.rows) (hj : j < g.cols) :
    g.ravel[i * g.cols + j]? = some (g.at_ i j) := by
  have hpos : 0 < g.cols := by omega
  have hlt : i * g.cols + j < g.rows * g.cols := by
    calc i * g.cols + j < i * g.cols + g.cols := by omega
      _ = (i + 1) * g.cols := by ring
      _ ≤ g.rows * g.cols := Nat.mul_le_mul_right _ hi
  rw [Grid.ravel, List.getElem?_map, List.getElem?_range hlt, Option.map_some]
  rw [Nat.mul_comm i, Nat.mul_add_div hpos, Nat.div_eq_of_lt hj, Nat.mul_add_mod, Nat.mod_eq_of_lt hj, Nat.add_zero]

theorem broadcastIndex_of_lt {n i : Nat} (h : i < n) : broadcastIndex n i = i := by
  rw [broadcastIndex]
  split
  · omega
  · rfl

/-- Masking more: the present mask and another array with as many columns, and as many rows or one of them with one row. -/
theorem or_assign (m b : Grid Bool) (hc : b.cols = m.cols) (hr : b.rows = m.rows ∨ b.rows = 1 ∨ m.rows = 1 ∧ 0 < b.rows) :
    ∃ new, logicalOr m b = .ok new ∧ (assignMask m new).rows = m.rows ∧ (assignMask m new).cols = m.cols ∧
      ∀ i < m.rows, ∀ j < m.cols, (assignMask m new).at_ i j = (m.at_ i j || b.at_ (if b.rows = 1 then 0 else i) j) := by
  have hcols : broadcastDim m.cols b.cols = some m.cols := by rw [broadcastDim, if_pos hc.symm]
  obtain ⟨r, hrows, hle⟩ : ∃ r, broadcastDim m.rows b.rows = some r ∧ (m.rows ≤ r ∨ m.rows = 0) ∧ (m.rows = 0 ∨ 0 < r) := by
    rw [broadcastDim]
    split
    · rename_i h
      exact ⟨m.rows, rfl, .inl le_rfl, by omega⟩
    · rename_i hne
      split
      · rename_i h
        refine ⟨b.rows, rfl, ?_⟩
        omega
      · rename_i h1
        rw [if_pos (by omega)]
        exact ⟨m.rows, rfl, .inl le_rfl, by omega⟩
  refine ⟨_, by rw [logicalOr, hcols, hrows], rfl, rfl, ?_⟩
  intro i hi j hj
  have hpos : 0 < m.cols := by omega
  have hri : i < r := by omega
  have hlt : i * m.cols + j < r * m.cols := by
    calc i * m.cols + j < i * m.cols + m.cols := by omega
      _ = (i + 1) * m.cols := by ring
      _ ≤ r * m.cols := Nat.mul_le_mul_right _ hri
  rw [assignMask]
  dsimp only
  rw [Nat.mod_eq_of_lt hlt, Nat.mul_comm i, Nat.mul_add_div hpos, Nat.div_eq_of_lt hj, Nat.mul_add_mod, Nat.mod_eq_of_lt hj,
    Nat.add_zero, broadcastIndex_of_lt hi, broadcastIndex_of_lt hj,
    broadcastIndex_of_lt (show j < b.cols by omega)]
  rfl

/-! ### Codes of stations -/

theorem stripZeros_append (c : List UInt8) (n : Nat) : stripZeros (c ++ List.replicate n 0) = stripZeros c := by
  rw [stripZeros, List.reverse_append, List.reverse_replicate]
  have : ∀ n, (List.replicate n (0 : UInt8) ++ c.reverse).dropWhile (fun b => b == 0) = c.reverse.dropWhile fun b => b == 0 := by
    intro n
    induction n with
    | zero => rfl
    | succ n ih => rw [List.replicate_succ, List.cons_append, List.dropWhile_cons_of_pos (by rfl), ih]
  rw [this n]
  rfl

theorem stripZeros_zeros (a : List UInt8) : ∃ n, a = stripZeros a ++ List.replicate n 0 := by
  have hsplit : a.reverse.takeWhile (fun b => b == 0) ++ a.reverse.dropWhile (fun b => b == 0) = a.reverse :=
    List.takeWhile_append_dropWhile
  refine ⟨(a.reverse.takeWhile fun b => b == 0).length, ?_⟩
  have hzero : a.reverse.takeWhile (fun b => b == 0) = List.replicate (a.reverse.takeWhile fun b => b == 0).length 0 := by
    rw [List.eq_replicate_iff]
    exact ⟨rfl, fun b hb => by
      have := List.mem_takeWhile_imp hb
      simpa using this⟩
  calc a = a.reverse.reverse := a.reverse_reverse.symm
    _ = _ := by
      conv_lhs => rw [← hsplit, List.reverse_append, hzero, List.reverse_replicate]
      rfl

theorem stripZeros_eq_iff (a b : List UInt8) : stripZeros a = stripZeros b ↔ SameText a b := by
  constructor
  · intro h
    obtain ⟨m, hm⟩ := stripZeros_zeros a
    obtain ⟨n, hn⟩ := stripZeros_zeros b
    exact ⟨stripZeros a, m, n, hm, by rw [h]; exact hn⟩
  · rintro ⟨c, m, n, rfl, rfl⟩
    rw [stripZeros_append, stripZeros_append]

theorem validation_iff (file : StationFile) (list : HoldOut) (i j : Nat) :
    (validationStations file list).at_ i j = true ↔ HeldOut file (some list) j := by
  rw [validationStations]
  dsimp only
  rw [List.any_eq_true]
  constructor
  · rintro ⟨k, hk, h⟩
    exact ⟨list, rfl, k, List.mem_range.1 hk, (stripZeros_eq_iff _ _).1 (by simpa using h)⟩
  · rintro ⟨list', h, k, hk, hs⟩
    obtain rfl := Option.some.inj h
    exact ⟨k, List.mem_range.2 hk, by simpa using (stripZeros_eq_iff _ _).2 hs⟩

/-! ### The mask -/

theorem names_of {observable variable_ flags : String} (h : Quantity observable variable_ flags) :
    variableName observable = .ok variable_ ∧ flagName observable = .ok flags := by
  cases h <;> constructor <;> rfl

theorem dayIndices_of {times : List ℚ} {day : Int} {t : Nat} (h : OnlyRow times day t) : dayIndices times day = [t] := by
  have hlt : t < times.length := (List.getElem?_eq_some_iff.1 h.1).1
  have hmem : ∀ i, i ∈ dayIndices times day ↔ i = t := by
    intro i
    rw [dayIndices, List.mem_filter, List.mem_range]
    constructor
    · rintro ⟨_, hi⟩
      exact h.2 i (by simpa using hi)
    · rintro rfl
      exact ⟨hlt, by simp [h.1]⟩
  have hnodup : (dayIndices times day).Nodup := List.Nodup.filter _ List.nodup_range
  have hsub : ∀ l : List Nat, l.Nodup → (∀ i, i ∈ l ↔ i = t) → l = [t] := by
    intro l hl hm
    cases l with
    | nil => exact absurd ((hm t).2 rfl) List.not_mem_nil
    | cons a l =>
      obtain rfl := (hm a).1 List.mem_cons_self
      cases l with
      | nil => rfl
      | cons b l =>
        obtain rfl := (hm b).1 (by simp)
        exact absurd List.mem_cons_self (List.nodup_cons.1 hl).1
  exact hsub _ hnodup hmem

/-- The mask of a day: besides the flags of the day those of the first row of the file are used if there is a list. -/
theorem day_mask (file : StationFile) (variable_ flags : String) (qc : Bool) (day : Int) (t : Nat)
    (ht : OnlyRow file.times day t) (hold : Option HoldOut) :
    ∃ mask mask', selectRows file variable_ flags qc (some day) = .ok (some ([t], mask)) ∧
      maskHoldOut file flags qc mask hold = .ok mask' ∧ mask'.rows = 1 ∧ mask'.cols = file.stations ∧
      ∀ j < file.stations, (mask'.at_ 0 j = false ↔
        Usable file variable_ flags hold qc t j ∧ (hold ≠ none → qc = true → file.flag flags 0 j = 0)) := by
  have hlen : 0 < file.times.length := by
    have := (List.getElem?_eq_some_iff.1 ht.1).1
    omega
  -- the first part
  obtain ⟨mask, hmask, hr, hc, hat⟩ : ∃ mask, selectRows file variable_ flags qc (some day) = .ok (some ([t], mask)) ∧
      mask.rows = 1 ∧ mask.cols = file.stations ∧ ∀ j < file.stations,
        mask.at_ 0 j = (file.missing variable_ t j || (qc && decide (file.flag flags t j ≠ 0))) := by
    rw [selectRows, dayIndices_of ht]
    dsimp only
    cases qc with
    | false => exact ⟨_, if_neg (by simp), rfl, rfl, fun j _ => by simp⟩
    | true =>
      rw [if_pos rfl]
      obtain ⟨new, h1, h2, h3, h4⟩ := or_assign (⟨1, file.stations, fun _ j => file.missing variable_ t j⟩ : Grid Bool)
        ⟨1, file.stations, fun _ j => decide (file.flag flags t j ≠ 0)⟩ rfl (.inl rfl)
      rw [h1]
      refine ⟨_, rfl, h2, h3, fun j hj => ?_⟩
      rw [h4 0 (by norm_num) j hj, Bool.true_and]
  refine ⟨mask, ?_⟩
  cases hold with
  | none =>
    refine ⟨mask, hmask, rfl, hr, hc, fun j hj => ?_⟩
    rw [hat j hj, Usable]
    have : ¬ HeldOut file none j := by rintro ⟨_, h, _⟩; cases h
    cases qc <;> simp [this]
  | some list =>
    obtain ⟨new, h1, h2, h3, h4⟩ := or_assign mask (validationStations file list) (by rw [hc]; rfl) (.inr (.inl rfl))
    have hfirst : ∀ j < file.stations, (assignMask mask new).at_ 0 j = (mask.at_ 0 j || (validationStations file list).at_ 0 j) := by
      intro j hj
      rw [h4 0 (by omega) j (by omega)]
      rfl
    have hval : ∀ j, (validationStations file list).at_ 0 j = false ↔ ¬ HeldOut file (some list) j := by
      intro j
      rw [← Bool.not_eq_true, validation_iff]
    cases qc with
    | false =>
      refine ⟨assignMask mask new, hmask, ?_, by omega, by omega, fun j hj => ?_⟩
      · rw [maskHoldOut, h1]
        rfl
      · rw [hfirst j hj, Bool.or_eq_false_iff, hval, hat j hj, Usable]
        simp
    | true =>
      obtain ⟨new', h5, h6, h7, h8⟩ := or_assign (assignMask mask new)
        ⟨file.times.length, file.stations, fun i j => decide (file.flag flags i j ≠ 0)⟩ (by show file.stations = _; omega)
        (.inr (.inr ⟨by omega, hlen⟩))
      refine ⟨assignMask (assignMask mask new) new', hmask, ?_, by omega, by omega, fun j hj => ?_⟩
      · rw [maskHoldOut, h1]
        dsimp only
        rw [if_pos rfl, h5]
      · rw [h8 0 (by omega) j (by omega), hfirst j hj, Bool.or_eq_false_iff, Bool.or_eq_false_iff, hval, hat j hj, Usable]
        have : (if file.times.length = 1 then 0 else 0) = 0 := ite_self _
        dsimp only
        rw [this]
        simp only [Bool.true_and, Bool.or_eq_false_iff, decide_eq_false_iff_not, not_not, ne_eq, reduceCtorEq, not_false_eq_true,
          forall_const]
        tauto

/-- The mask of a whole file: the flags are used only if there is a list of stations to be held out. -/
theorem all_mask (file : StationFile) (variable_ flags : String) (qc : Bool) (hold : Option HoldOut) :
    ∃ mask mask', selectRows file variable_ flags qc none = .ok (some (List.range file.times.length, mask)) ∧
      maskHoldOut file flags qc mask hold = .ok mask' ∧ mask'.rows = file.times.length ∧ mask'.cols = file.stations ∧
      ∀ t < file.times.length, ∀ j < file.stations, (mask'.at_ t j = false ↔
        Usable file variable_ flags hold (hold.isSome && qc) t j) := by
  refine ⟨⟨file.times.length, file.stations, fun i j => file.missing variable_ i j⟩, ?_⟩
  cases hold with
  | none =>
    refine ⟨_, rfl, rfl, rfl, rfl, fun t _ j _ => ?_⟩
    have : ¬ HeldOut file none j := by rintro ⟨_, h, _⟩; cases h
    rw [Usable]
    simp [this]
  | some list =>
    obtain ⟨new, h1, h2, h3, h4⟩ := or_assign ⟨file.times.length, file.stations, fun i j => file.missing variable_ i j⟩
      (validationStations file list) rfl (.inr (.inl rfl))
    have hval : ∀ i j, (validationStations file list).at_ i j = false ↔ ¬ HeldOut file (some list) j := by
      intro i j
      rw [← Bool.not_eq_true, validation_iff]
    cases qc with
    | false =>
      refine ⟨_, rfl, by rw [maskHoldOut, h1]; rfl, h2, h3, fun t ht j hj => ?_⟩
      rw [h4 t ht j hj, Bool.or_eq_false_iff, hval, Usable]
      simp
    | true =>
      obtain ⟨new', h5, h6, h7, h8⟩ := or_assign
        (assignMask ⟨file.times.length, file.stations, fun i j => file.missing variable_ i j⟩ new)
        ⟨file.times.length, file.stations, fun i j => decide (file.flag flags i j ≠ 0)⟩ h3.symm (.inl h2.symm)
      refine ⟨_, rfl, by rw [maskHoldOut, h1]; dsimp only; rw [if_pos rfl, h5], by rw [h6, h2], by rw [h7, h3], fun t ht j hj => ?_⟩
      have hrow : (if file.times.length = 1 then 0 else t) = t := by
        split
        · omega
        · rfl
      rw [h8 t (by rw [h2]; exact ht) j (by rw [h3]; exact hj), h4 t ht j hj, Bool.or_eq_false_iff, Bool.or_eq_false_iff, hval, Usable]
      dsimp only
      rw [hrow]
      simp only [Option.isSome_some, Bool.true_and, decide_eq_false_iff_not, not_not, ne_eq, forall_const]
      tauto

/-! ### What users rely on -/

/-- The lists of the observations have one place for each row and station. -/
theorem formulate_sized (file : StationFile) (rows : List Nat) (m : Measured) (hr : m.mask.rows = rows.length)
    (hc : m.mask.cols = file.stations) : Sized (formulate file rows m) (rows.length * file.stations) := by
  refine ⟨?_, ?_, ?_, ?_, rfl⟩
  · show m.mask.ravel.length = _
    rw [ravel_length, hr, hc]
  all_goals exact ravel_length _

/-- **C132**: observations of a day have one place for each station in order, with the value of the station on that day, its
number as location and the day as time.  Whatever is not masked is to be used: it is not missing, it passed the checks of quality
if they are asked for, and its station is not held out.  Without checks or without a list of stations to be held out all which
is to be used is not masked. -/
theorem c132_day (file : StationFile) {observable variable_ flags : String} (hq : Quantity observable variable_ flags)
    (qc : Bool) (day : Int) (t : Nat) (ht : OnlyRow file.times day t) (hold : Option HoldOut) :
    ∃ o, observations file (some day) hold none observable qc = .ok (some o) ∧ Sized o file.stations ∧
      o.time = .array (List.replicate file.stations (day : ℚ)) ∧
      ∀ j < file.stations, o.location[j]? = some (UInt64.ofNat j) ∧ o.measurement[j]? = some (file.value variable_ t j) ∧
        o.uncorrelated[j]? = some 0.3 ∧
        (o.mask[j]? = some false → Usable file variable_ flags hold qc t j) ∧
        (hold = none ∨ qc = false → Usable file variable_ flags hold qc t j → o.mask[j]? = some false) := by
  obtain ⟨mask, mask', h1, h2, hr, hc, hat⟩ := day_mask file variable_ flags qc day t ht hold
  obtain ⟨hv, hf⟩ := names_of hq
  refine ⟨formulate file [t] ⟨mask', fun i j => file.value variable_ ([t].getD i 0) j, fun _ _ => 0.3⟩, ?_, ?_, ?_, ?_⟩
  · rw [observations, hv, hf]
    dsimp only
    rw [h1]
    dsimp only
    rw [h2]
    rfl
  · simpa using formulate_sized file [t] ⟨mask', fun i j => file.value variable_ ([t].getD i 0) j, fun _ _ => 0.3⟩ hr hc
  · rw [formulate]
    dsimp only
    congr 1
    rw [List.eq_replicate_iff]
    constructor
    · rw [ravel_length]
      exact Nat.one_mul _
    · intro x hx
      rw [Grid.ravel, List.mem_map] at hx
      obtain ⟨k, hk, rfl⟩ := hx
      rw [List.mem_range] at hk
      dsimp only at hk ⊢
      have hz : k / file.stations = 0 := by
        rw [List.length_singleton, Nat.one_mul] at hk
        exact Nat.div_eq_of_lt hk
      rw [hz, List.getD_eq_getElem?_getD, List.getD_eq_getElem?_getD]
      simp [ht.1]
  · intro j hj
    have hz : ∀ {α : Type} (f : Nat → Nat → α), (Grid.ravel ⟨[t].length, file.stations, f⟩)[j]? = some (f 0 j) := by
      intro α f
      have := ravel_get ⟨[t].length, file.stations, f⟩ 0 j (by simp) hj
      simpa using this
    have hm : mask'.ravel[j]? = some (mask'.at_ 0 j) := by
      have := ravel_get mask' 0 j (by omega) (by omega)
      simpa using this
    refine ⟨hz _, hz _, hz _, ?_, ?_⟩
    · intro h
      have h' : mask'.ravel[j]? = some false := h
      rw [hm] at h'
      exact ((hat j hj).1 (Option.some.inj h')).1
    · intro hor hu
      show mask'.ravel[j]? = some false
      rw [hm, (hat j hj).2 ⟨hu, ?_⟩]
      rcases hor with rfl | rfl
      · exact fun h => absurd rfl h
      · exact fun _ h => by cases h

/-- Non-vacuity: a file of two days and two stations, the second of which has a flag on the second day. -/
noncomputable def file0 : StationFile where
  times := [100, 101]
  stations := 2
  code := fun j => [65, 66, UInt8.ofNat j, 0]
  latitude := fun j => 10 * j
  longitude := fun j => 200 * j
  elevation := fun j => 500 * j
  noElevation := fun _ => false
  value := fun _ t j => 280 + t + 10 * j
  missing := fun _ _ _ => false
  flag := fun _ t j => if t = 1 ∧ j = 1 then 2 else 0

theorem row0 : OnlyRow file0.times 101 1 := by
  refine ⟨by show some (101 : ℚ) = _; norm_num, fun t h => ?_⟩
  match t, h with
  | 0, h => norm_num [file0] at h
  | 1, _ => rfl
  | t + 2, h => simp [file0] at h

example : Usable file0 "tasmin" "tasmin_qc" none true 1 0 ∧ ¬ Usable file0 "tasmin" "tasmin_qc" none true 1 1 := by
  refine ⟨⟨rfl, fun _ => by simp [file0], by rintro ⟨_, h, _⟩; cases h⟩, fun h => ?_⟩
  have := h.2.1 rfl
  simp [file0] at this

/-- **C132, partial**: with checks and with a list what is to be used is not masked if its station has no flag in the first row of the
file.  Missing: this should not depend on the first row. -/
theorem c132_hold_out_partial (file : StationFile) {observable variable_ flags : String}
    (hq : Quantity observable variable_ flags) (day : Int) (t : Nat) (ht : OnlyRow file.times day t) (list : HoldOut) :
    ∃ o, observations file (some day) (some list) none observable true = .ok (some o) ∧ Sized o file.stations ∧
      ∀ j < file.stations, (o.mask[j]? = some false ↔
        Usable file variable_ flags (some list) true t j ∧ file.flag flags 0 j = 0) := by
  obtain ⟨mask, mask', h1, h2, hr, hc, hat⟩ := day_mask file variable_ flags true day t ht (some list)
  obtain ⟨hv, hf⟩ := names_of hq
  refine ⟨formulate file [t] ⟨mask', fun i j => file.value variable_ ([t].getD i 0) j, fun _ _ => 0.3⟩, ?_, ?_, ?_⟩
  · rw [observations, hv, hf]
    dsimp only
    rw [h1]
    dsimp only
    rw [h2]
    rfl
  · simpa using formulate_sized file [t] ⟨mask', fun i j => file.value variable_ ([t].getD i 0) j, fun _ _ => 0.3⟩ hr hc
  · intro j hj
    have hm : mask'.ravel[j]? = some (mask'.at_ 0 j) := by
      have := ravel_get mask' 0 j (by omega) (by omega)
      simpa using this
    show mask'.ravel[j]? = some false ↔ _
    rw [hm, Option.some.injEq, hat j hj]
    simp

/-- **C132 violated**: with checks and a list of stations to be held out, a flag in the first row of the file masks the station on
other days as well, although the measurement is there, has no flag and its station is not held out. -/
theorem c132_hold_out_violated : ∃ (file : StationFile) (list : HoldOut) (o : Observations ℝ),
    OnlyRow file.times 101 1 ∧ Usable file "tasmin" "tasmin_qc" (some list) true 1 0 ∧
      observations file (some 101) (some list) none "Tmin" true = .ok (some o) ∧ o.mask[0]? ≠ some false := by
  let file : StationFile := { file0 with flag := fun _ t j => if t = 0 ∧ j = 0 then 2 else 0 }
  obtain ⟨o, h1, _, h3⟩ := c132_hold_out_partial file .minimum 101 1 row0 ⟨0, fun _ => []⟩
  refine ⟨file, ⟨0, fun _ => []⟩, o, row0, ⟨rfl, fun _ => by simp [file], ?_⟩, h1, ?_⟩
  · rintro ⟨list, h, k, hk, _⟩
    obtain rfl := Option.some.inj h
    exact absurd hk (Nat.not_lt_zero _)
  · intro h
    have := ((h3 0 (by show 0 < 2; norm_num)).1 h).2
    simp [file] at this

/-- **C132**: a whole file gives all rows in turn, and for each all stations in turn, with values and times; they are masked unless
they are to be used.  With checks this needs a list of stations to be held out, which may be empty. -/
theorem c132_all_partial (file : StationFile) {observable variable_ flags : String} (hq : Quantity observable variable_ flags)
    (qc : Bool) (hold : Option HoldOut) (hh : hold ≠ none ∨ qc = false) :
    ∃ o times, observations file none hold none observable qc = .ok (some o) ∧
      Sized o (file.times.length * file.stations) ∧ o.time = .array times ∧
      times.length = file.times.length * file.stations ∧
      ∀ t < file.times.length, ∀ j < file.stations,
        o.location[t * file.stations + j]? = some (UInt64.ofNat j) ∧
        o.measurement[t * file.stations + j]? = some (file.value variable_ t j) ∧
        o.uncorrelated[t * file.stations + j]? = some 0.3 ∧
        times[t * file.stations + j]? = file.times[t]? ∧
        (o.mask[t * file.stations + j]? = some false ↔ Usable file variable_ flags hold qc t j) := by
  obtain ⟨mask, mask', h1, h2, hr, hc, hat⟩ := all_mask file variable_ flags qc hold
  obtain ⟨hv, hf⟩ := names_of hq
  have hlen : (List.range file.times.length).length = file.times.length := List.length_range
  refine ⟨formulate file (List.range file.times.length)
    ⟨mask', fun i j => file.value variable_ ((List.range file.times.length).getD i 0) j, fun _ _ => 0.3⟩, _, ?_, ?_, rfl, ?_, ?_⟩
  · rw [observations, hv, hf]
    dsimp only
    rw [h1]
    dsimp only
    rw [h2]
    rfl
  · have := formulate_sized file (List.range file.times.length)
      ⟨mask', fun i j => file.value variable_ ((List.range file.times.length).getD i 0) j, fun _ _ => 0.3⟩ (by rw [hlen]; exact hr) hc
    rwa [hlen] at this
  · rw [ravel_length, hlen]
  · intro t ht j hj
    have hz : ∀ {α : Type} (f : Nat → Nat → α),
        (Grid.ravel ⟨(List.range file.times.length).length, file.stations, f⟩)[t * file.stations + j]? = some (f t j) := by
      intro α f
      exact ravel_get ⟨(List.range file.times.length).length, file.stations, f⟩ t j (by rw [hlen]; exact ht) hj
    have hm : mask'.ravel[t * file.stations + j]? = some (mask'.at_ t j) := by
      have := ravel_get mask' t j (by omega) (by omega)
      rwa [hc] at this
    have hrow : (List.range file.times.length).getD t 0 = t := by
      rw [List.getD_eq_getElem?_getD, List.getElem?_range ht]
      rfl
    refine ⟨hz _, ?_, hz _, ?_, ?_⟩
    · rw [formulate]
      dsimp only
      rw [hz, hrow]
    · rw [hz, hrow, List.getD_eq_getElem?_getD, List.getElem?_eq_getElem ht]
      rfl
    · show mask'.ravel[t * file.stations + j]? = some false ↔ _
      rw [hm, Option.some.injEq, hat t ht j hj]
      have : (hold.isSome && qc) = qc := by
        rcases hh with h | rfl
        · cases hold with
          | none => exact absurd rfl h
          | some _ => exact Bool.true_and _
        · exact Bool.and_false _
      rw [this]

/-- Non-vacuity: a list is given, or no checks are asked for. -/
example : (some (⟨1, fun _ => [65, 66, 1]⟩ : HoldOut) ≠ none ∨ true = false) ∧
    HeldOut file0 (some ⟨1, fun _ => [65, 66, 1]⟩) 1 ∧ ¬ HeldOut file0 (some ⟨1, fun _ => [65, 66, 1]⟩) 0 := by
  refine ⟨.inl (by simp), ⟨_, rfl, 0, Nat.one_pos, [65, 66, 1], 1, 0, rfl, rfl⟩, ?_⟩
  rintro ⟨list, h, k, _, hs⟩
  obtain rfl := Option.some.inj h
  have := (stripZeros_eq_iff _ _).2 hs
  revert this
  show stripZeros [65, 66, 0, 0] = stripZeros [65, 66, 1] → False
  decide

/-- **C132 violated**: for a whole file without a list of stations to be held out, the checks are ignored although they are asked for:
a measurement with a flag is not masked. -/
theorem c132_all_violated : ∃ (file : StationFile) (o : Observations ℝ),
    observations file none none none "Tmin" true = .ok (some o) ∧ 1 < file.times.length ∧ 1 < file.stations ∧
      ¬ Usable file "tasmin" "tasmin_qc" none true 1 1 ∧ o.mask[1 * file.stations + 1]? = some false := by
  obtain ⟨o, times, h1, _, _, _, h⟩ := c132_all_partial file0 .minimum false none (.inr rfl)
  refine ⟨file0, o, h1, by show 1 < 2; norm_num, by show 1 < 2; norm_num, fun hu => ?_, ?_⟩
  · have := hu.2.1 rfl
    simp [file0] at this
  · refine ((h 1 (by show 1 < 2; norm_num) 1 (by show 1 < 2; norm_num)).2.2.2.2).2 ⟨rfl, fun h => absurd h (by simp), ?_⟩
    rintro ⟨_, h, _⟩
    cases h

/-- **C132**: there are no observations for a day which is not in the file, and none if it is there more than once. -/
theorem c132_absent (file : StationFile) (observable : String) (qc : Bool) (day : Int) (hold : Option HoldOut)
    (adjustment : Option Adjustment) (h : ¬ ∃ t, OnlyRow file.times day t) (o : Observations ℝ) :
    observations file (some day) hold adjustment observable qc ≠ .ok (some o) := by
  intro ho
  rw [observations] at ho
  have hrows : ∀ variable_ flags, selectRows file variable_ flags qc (some day) = .ok none := by
    intro v f
    rw [selectRows]
    split
    · rename_i t ht
      refine absurd ⟨t, ?_⟩ h
      have hmem : ∀ i, i ∈ dayIndices file.times day ↔ file.times[i]? = some (day : ℚ) := by
        intro i
        rw [dayIndices, List.mem_filter, List.mem_range]
        constructor
        · rintro ⟨_, hi⟩
          simpa using hi
        · intro hi
          exact ⟨(List.getElem?_eq_some_iff.1 hi).1, by simp [hi]⟩
      rw [ht] at hmem
      exact ⟨(hmem t).1 List.mem_cons_self, fun t' ht' => by simpa using (hmem t').2 ht'⟩
    · rfl
  split at ho
  · rw [hrows] at ho
    cases ho
  · cases ho

/-- Non-vacuity: day 7 is not in the file. -/
example : ¬ ∃ t, OnlyRow file0.times 7 t := by
  rintro ⟨t, h, _⟩
  match t, h with
  | 0, h => norm_num [file0] at h
  | 1, h => norm_num [file0] at h
  | t + 2, h => simp [file0] at h

end Verif.Eustace.Insitu
