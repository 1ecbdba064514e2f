import Verif.Eustace.CppReader.Model
import Verif.Eustace.RawBinary.Props
import Verif.Eustace.RawBinary.Pointers

/-! Streams, words and records. -/

namespace Verif.Eustace.CppReader

open Verif RawBinary

theorem differ_iff (a b : Bytes) (n : Nat) (ha : a.length = n) (hb : b.length = n) (hz : ∀ x ∈ b, x ≠ 0) :
    differ n a b = true ↔ a ≠ b := by
  induction n generalizing a b with
  | zero =>
    rw [List.length_eq_zero_iff] at ha hb
    simp [ha, hb, differ]
  | succ n ih =>
    cases a with
    | nil => simp at ha
    | cons x a =>
      cases b with
      | nil => simp at hb
      | cons y b =>
        rw [differ]
        by_cases hxy : x = y
        · have hx : x ≠ 0 := hxy ▸ hz y List.mem_cons_self
          rw [if_neg (by simpa using hxy), if_neg hx,
            ih a b (by simpa using ha) (by simpa using hb) fun z hz' => hz z (List.mem_cons_of_mem _ hz')]
          simp [hxy]
        · rw [if_pos hxy]
          simp [hxy]

theorem formats_nonzero : (∀ x ∈ formatObservation, x ≠ 0) ∧ (∀ x ∈ formatLocationLookup, x ≠ 0) ∧
    (∀ x ∈ formatCorrelationRange, x ≠ 0) ∧ (∀ x ∈ formatPointers, x ≠ 0) := by
  refine ⟨?_, ?_, ?_, ?_⟩ <;> decide

/-- A read which the file has enough bytes for. -/
theorem read_ok (file : Bytes) (pos : Nat) (buffer : Bytes) (h : pos + buffer.length ≤ file.length) :
    (Stream.mk file pos false).read buffer = ((file.drop pos).take buffer.length, ⟨file, pos + buffer.length, false⟩) := by
  have hl : ((file.drop pos).take buffer.length).length = buffer.length := by
    rw [List.length_take, List.length_drop]
    omega
  rw [Stream.read, if_neg (by simp)]
  dsimp only
  rw [hl]
  simp

/-- A read on a stream which has failed. -/
theorem read_failed (s : Stream) (h : s.fail = true) (buffer : Bytes) : s.read buffer = (buffer, s) := by
  rw [Stream.read, if_pos h]

/-- A read which the file has not enough bytes for fails. -/
theorem read_short (file : Bytes) (pos : Nat) (buffer : Bytes) (h : file.length < pos + buffer.length) (hb : 0 < buffer.length) :
    ((Stream.mk file pos false).read buffer).2.fail = true := by
  rw [Stream.read, if_neg (by simp)]
  dsimp only
  rw [decide_eq_true_iff, List.length_take, List.length_drop]
  omega

theorem zeros_length (n : Nat) : (zeros n).length = n := List.length_replicate

theorem fieldsOf_eq (k : Nat) (b : Bytes) : fieldsOf k b = (List.range k).map fun j => wordAt b (8 * j) := by
  induction k generalizing b with
  | zero => rfl
  | succ k ih =>
    rw [fieldsOf, ih, List.range_succ_eq_map, List.map_cons, List.map_map]
    congr 1
    apply List.map_congr_left
    intro j _
    simp only [Function.comp_apply, wordAt, List.drop_drop]
    rw [show 8 + 8 * j = 8 * (j + 1) by ring]

theorem rowsOf_eq (n k : Nat) (b : Bytes) :
    rowsOf n k b = (List.range n).map fun i => (List.range k).map fun j => wordAt b (8 * k * i + 8 * j) := by
  induction n generalizing b with
  | zero => rfl
  | succ n ih =>
    rw [rowsOf, ih, fieldsOf_eq, List.range_succ_eq_map, List.map_cons, List.map_map]
    congr 1
    · apply List.map_congr_left
      intro j _
      simp
    · apply List.map_congr_left
      intro i _
      apply List.map_congr_left
      intro j _
      simp only [wordAt, List.drop_drop]
      rw [show 8 * k + (8 * k * i + 8 * j) = 8 * k * (i + 1) + 8 * j by ring]

/-- A word of a record. -/
theorem wordAt_rows (rows : List (List UInt64)) (k : Nat) (h : ∀ r ∈ rows, r.length = k) (rest : Bytes) (i j : Nat)
    (hi : i < rows.length) (hj : j < k) : wordAt (tofile rows ++ rest) (8 * k * i + 8 * j) = rows[i].getD j 0 := by
  have h1 := rowsOf_tofile rows k h rest
  rw [rowsOf_eq] at h1
  have h2 := congrArg (fun l => l[i]?) h1
  simp only [List.getElem?_map, List.getElem?_range hi, Option.map_some, List.getElem?_eq_getElem hi] at h2
  have h3 := congrArg (fun l => l.getD j 0) (Option.some.inj h2)
  rw [← h3, List.getD_eq_getElem?_getD, List.getElem?_map, List.getElem?_range hj]
  rfl

/-- Pairs of an array. -/
theorem pairsOf_tofile (pairs : List (UInt64 × UInt64)) (rest : Bytes) :
    pairsOf pairs.length (tofile (pairs.map fun p => [p.1, p.2]) ++ rest) = pairs := by
  apply List.ext_getElem?
  intro i
  rw [pairsOf, List.getElem?_map]
  by_cases hi : i < pairs.length
  · rw [List.getElem?_range hi, List.getElem?_eq_getElem hi, Option.map_some]
    have h0 := wordAt_rows (pairs.map fun p => [p.1, p.2]) 2 (pairs_length pairs) rest i 0 (by simpa using hi) (by omega)
    have h1 := wordAt_rows (pairs.map fun p => [p.1, p.2]) 2 (pairs_length pairs) rest i 1 (by simpa using hi) (by omega)
    rw [show 8 * 2 * i + 8 * 0 = 16 * i by ring] at h0
    rw [show 8 * 2 * i + 8 * 1 = 16 * i + 8 by ring] at h1
    rw [h0, h1]
    simp
  · rw [List.getElem?_eq_none (by simpa using hi), List.getElem?_eq_none (by simpa using hi)]
    rfl

/-- The header of a good file. -/
theorem checkHeader_ok (format junk rest : Bytes) (hf : format.length = 16) (hz : ∀ x ∈ format, x ≠ 0) (hj : junk.length = 16) :
    checkHeader format junk (openStream (some (format ++ codeId ++ rest))) =
      .ok ⟨format ++ codeId ++ rest, 32, false⟩ := by
  have hc := format_length.2.2.2.2
  have hlen : (format ++ codeId ++ rest).length = 32 + rest.length := by
    rw [List.length_append, List.length_append, hf, hc]
  have h1 : (Stream.mk (format ++ codeId ++ rest) 0 false).read junk =
      (format, ⟨format ++ codeId ++ rest, 16, false⟩) := by
    rw [read_ok _ _ _ (by rw [hlen, hj]; omega), hj]
    simp only [List.drop_zero, List.append_assoc, Nat.zero_add]
    rw [List.take_left' hf]
  have h2 : ((Stream.mk (format ++ codeId ++ rest) 16 false).read junk).2 = ⟨format ++ codeId ++ rest, 32, false⟩ := by
    rw [read_ok _ _ _ (by rw [hlen, hj]; omega), hj]
  rw [checkHeader, openStream, h1]
  dsimp only
  rw [h2, if_neg]
  rw [differ_iff _ _ _ hf hf hz]
  simp

theorem numEntries_ok (file : Bytes) (pos size : Nat) (h : pos ≤ file.length) :
    numEntries ⟨file, pos, false⟩ size =
      if (file.length - pos) % size ≠ 0 then .error .unexpectedDataSize else .ok ((file.length - pos) / size) := by
  rw [numEntries]
  simp only [Stream.seekEnd, Stream.tell, if_neg Bool.false_ne_true]
  rw [show ((file.length : Int) - pos).toNat = file.length - pos by omega]

/-- The number of entries of a stream which has failed. -/
theorem numEntries_failed (s : Stream) (h : s.fail = true) (size : Nat) : numEntries s size = .ok 0 := by
  rw [numEntries]
  simp [Stream.seekEnd, Stream.tell, h]

/-- The extended header of a good file. -/
theorem extendedHeader_ok (format junk old uuid body : Bytes) (hf : format.length = 16) (hz : ∀ x ∈ format, x ≠ 0)
    (hj : junk.length = 16) (ho : old.length = 16) (hu : uuid.length = 16) (size : Nat) :
    extendedHeader format junk old size (openStream (some (format ++ codeId ++ uuid ++ body))) =
      if body.length % size ≠ 0 then .error .unexpectedDataSize
      else .ok (uuid, body.length / size, ⟨format ++ codeId ++ uuid ++ body, 48, false⟩) := by
  have hc := format_length.2.2.2.2
  have hlen : (format ++ codeId ++ uuid ++ body).length = 48 + body.length := by
    rw [List.length_append, List.length_append, List.length_append, hf, hc, hu]
  have h1 : (Stream.mk (format ++ codeId ++ uuid ++ body) 32 false).read old =
      (uuid, ⟨format ++ codeId ++ uuid ++ body, 48, false⟩) := by
    rw [read_ok _ _ _ (by rw [hlen, ho]; omega), ho]
    congr 1
    rw [List.append_assoc, List.drop_left' (by rw [List.length_append, hf, hc]), List.take_left' hu]
  have h0 := checkHeader_ok format junk (uuid ++ body) hf hz hj
  rw [← List.append_assoc] at h0
  rw [extendedHeader, h0]
  dsimp only
  rw [h1]
  dsimp only
  rw [numEntries_ok _ _ _ (by omega), hlen, show 48 + body.length - 48 = body.length by omega]
  split <;> rename_i h2 <;> split at h2 <;> first | cases h2 | skip
  · rename_i h3
    rw [if_pos h3]
  · rename_i h3
    rw [if_neg h3]

/-- Elements met by an iterator. -/
theorem itemsOf_eq (e : Entries) :
    itemsOf e = (List.range e.count).map fun i => item e ⟨i, entrySize e.ranges * i⟩ := by
  have gen : ∀ n start, start + n = e.count →
      iterate e (n + 1) ⟨start, entrySize e.ranges * start⟩ =
        (List.range n).map fun i => item e ⟨start + i, entrySize e.ranges * (start + i)⟩ := by
    intro n
    induction n with
    | zero =>
      intro start h
      rw [iterate, if_neg (by simp; omega)]
      rfl
    | succ n ih =>
      intro start h
      rw [iterate, if_pos (by simp; omega), List.range_succ_eq_map, List.map_cons, List.map_map]
      congr 1
      have h1 := ih (start + 1) (by omega)
      rw [show entrySize e.ranges * start + entrySize e.ranges = entrySize e.ranges * (start + 1) by ring, h1]
      apply List.map_congr_left
      intro i _
      simp only [Function.comp_apply]
      rw [show start + 1 + i = start + (i + 1) by omega]
  have := gen e.count 0 (by omega)
  simp only [Nat.zero_add, Nat.mul_zero] at this
  exact this

/-- The observation in a record. -/
def itemOfRow (row : List UInt64) : Item := ⟨row.getD 0 0, row.getD 1 0, row.getD 2 0, row.drop 3⟩

/-- Elements of an array of records. -/
theorem itemsOf_rows (ranges : Nat) (uuid : Bytes) (rows : List (List UInt64)) (h : ∀ r ∈ rows, r.length = 3 + ranges) :
    itemsOf ⟨ranges, rows.length, uuid, tofile rows⟩ = rows.map itemOfRow := by
  rw [itemsOf_eq]
  apply List.ext_getElem?
  intro i
  rw [List.getElem?_map, List.getElem?_map]
  by_cases hi : i < rows.length
  · rw [List.getElem?_range hi, List.getElem?_eq_getElem hi, Option.map_some, Option.map_some]
    congr 1
    have hw : ∀ j, j < 3 + ranges → wordAt (tofile rows) (8 * (3 + ranges) * i + 8 * j) = rows[i].getD j 0 := by
      intro j hj
      have := wordAt_rows rows (3 + ranges) h [] i j hi hj
      rwa [List.append_nil] at this
    have hs : entrySize ranges = 8 * (3 + ranges) := by rw [entrySize]; ring
    rw [item, itemOfRow]
    dsimp only
    rw [hs]
    have h0 := hw 0 (by omega)
    have h1 := hw 1 (by omega)
    have h2 := hw 2 (by omega)
    rw [show 8 * (3 + ranges) * i + 8 * 0 = 8 * (3 + ranges) * i by ring] at h0
    rw [show 8 * (3 + ranges) * i + 8 * 1 = 8 * (3 + ranges) * i + 8 by ring] at h1
    rw [show 8 * (3 + ranges) * i + 8 * 2 = 8 * (3 + ranges) * i + 16 by ring] at h2
    rw [h0, h1, h2]
    congr 1
    apply List.ext_getElem?
    intro j
    rw [List.getElem?_map, List.getElem?_drop]
    have hl : rows[i].length = 3 + ranges := h _ (List.getElem_mem hi)
    by_cases hj : j < ranges
    · rw [List.getElem?_range hj, Option.map_some,
        show 8 * (3 + ranges) * i + 24 + 8 * j = 8 * (3 + ranges) * i + 8 * (3 + j) by ring, hw (3 + j) (by omega),
        List.getD_eq_getElem?_getD, List.getElem?_eq_getElem (by omega)]
      rfl
    · rw [List.getElem?_eq_none (by simpa using hj), List.getElem?_eq_none (by omega)]
      rfl
  · rw [List.getElem?_eq_none (by simpa using hi), List.getElem?_eq_none (by simpa using hi)]
    rfl

end Verif.Eustace.CppReader
