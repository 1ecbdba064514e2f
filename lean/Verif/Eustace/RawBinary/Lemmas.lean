import Verif.Eustace.RawBinary.Model
import Mathlib.Tactic.Ring
import Mathlib.Tactic.Linarith

/-! Bytes and records. -/

namespace Verif.Eustace.RawBinary

open Verif

theorem digits_length (k n : Nat) : (digits k n).length = k := by
  induction k generalizing n with
  | zero => rfl
  | succ k ih => rw [digits, List.length_cons, ih]

theorem ofDigits_digits (k n : Nat) (h : n < 256 ^ k) : ofDigits (digits k n) = n := by
  induction k generalizing n with
  | zero => rw [pow_zero] at h; rw [digits, ofDigits]; omega
  | succ k ih =>
    have h1 : n / 256 < 256 ^ k := by
      rw [pow_succ] at h
      exact Nat.div_lt_of_lt_mul (by rwa [Nat.mul_comm] at h)
    have h2 : (UInt8.ofNat (n % 256)).toNat = n % 256 := by
      rw [UInt8.toNat_ofNat']
      omega
    rw [digits, ofDigits, ih _ h1, h2]
    omega

theorem word_length (w : UInt64) : (word w).length = 8 := digits_length 8 _

theorem ofDigits_word (w : UInt64) : UInt64.ofNat (ofDigits (word w)) = w := by
  have h : w.toNat < 256 ^ 8 := by
    have := UInt64.toNat_lt w
    norm_num at this ⊢
    exact this
  rw [word, ofDigits_digits 8 _ h, UInt64.ofNat_toNat]

theorem words_length (r : List UInt64) : (r.flatMap word).length = 8 * r.length := by
  induction r with
  | nil => rfl
  | cons w r ih =>
    rw [List.flatMap_cons, List.length_append, ih, word_length, List.length_cons]
    ring

theorem fieldsOf_words (r : List UInt64) (rest : Bytes) : fieldsOf r.length (r.flatMap word ++ rest) = r := by
  induction r with
  | nil => rfl
  | cons w r ih =>
    rw [List.length_cons, fieldsOf, List.flatMap_cons, List.append_assoc]
    rw [List.take_left' (word_length w), List.drop_left' (word_length w), ofDigits_word, ih]

theorem tofile_length (rows : List (List UInt64)) (k : Nat) (h : ∀ r ∈ rows, r.length = k) :
    (tofile rows).length = 8 * k * rows.length := by
  induction rows with
  | nil => simp [tofile]
  | cons r rows ih =>
    have h1 := ih fun r' hr => h r' (List.mem_cons_of_mem _ hr)
    rw [tofile] at h1 ⊢
    rw [List.flatMap_cons, List.length_append, h1, words_length, h r List.mem_cons_self, List.length_cons]
    ring

theorem rowsOf_tofile (rows : List (List UInt64)) (k : Nat) (h : ∀ r ∈ rows, r.length = k) (rest : Bytes) :
    rowsOf rows.length k (tofile rows ++ rest) = rows := by
  induction rows with
  | nil => rfl
  | cons r rows ih =>
    have hr := h r List.mem_cons_self
    have h1 := ih fun r' hr => h r' (List.mem_cons_of_mem _ hr)
    have h2 : tofile (r :: rows) = r.flatMap word ++ tofile rows := List.flatMap_cons ..
    rw [List.length_cons, rowsOf, h2, List.append_assoc]
    have h3 := fieldsOf_words r (tofile rows ++ rest)
    rw [hr] at h3
    rw [h3, List.drop_left' (by rw [words_length, hr]), h1]

theorem fromfile_tofile (rows : List (List UInt64)) (k : Nat) (h : ∀ r ∈ rows, r.length = k) (rest : Bytes)
    (hrest : rest.length < 8 * k) : fromfile k (tofile rows ++ rest) = rows := by
  have hlen : (tofile rows ++ rest).length / (8 * k) = rows.length := by
    rw [List.length_append, tofile_length rows k h, Nat.mul_add_div (by omega), Nat.div_eq_of_lt hrest, Nat.add_zero]
  rw [fromfile, hlen, rowsOf_tofile rows k h]

theorem fromfile_tofile' (rows : List (List UInt64)) (k : Nat) (hk : 0 < k) (h : ∀ r ∈ rows, r.length = k) :
    fromfile k (tofile rows) = rows := by
  have := fromfile_tofile rows k h [] (by rw [List.length_nil]; omega)
  rwa [List.append_nil] at this

theorem format_length : formatObservation.length = 16 ∧ formatLocationLookup.length = 16 ∧
    formatCorrelationRange.length = 16 ∧ formatPointers.length = 16 ∧ codeId.length = 16 := by
  refine ⟨?_, ?_, ?_, ?_, ?_⟩ <;> rfl

theorem readHeader_append (format : Bytes) (hf : format.length = 16) (rest : Bytes) :
    readHeader format (format ++ codeId ++ rest) = .ok rest := by
  rw [readHeader, List.append_assoc, List.take_left' hf, if_neg (by simp), List.drop_left' hf,
    List.drop_left' format_length.2.2.2.2]

theorem readLocationHeader_append (format : Bytes) (hf : format.length = 16) (uuid : Bytes) (hu : uuid.length = 16)
    (rest : Bytes) : readLocationHeader format (format ++ codeId ++ uuid ++ rest) = .ok (uuid, rest) := by
  rw [readLocationHeader, List.append_assoc, readHeader_append format hf]
  dsimp only
  rw [List.take_left' hu, List.drop_left' hu, if_neg (by omega)]

theorem items_ok (ls : List (List UInt64)) (i : Nat) (h : ∀ l ∈ ls, i < l.length) :
    items ls i = .ok (ls.map fun l => l.getD i 0) := by
  induction ls with
  | nil => rfl
  | cons l ls ih =>
    have hi := h l List.mem_cons_self
    have hitem : item l i = .ok (l.getD i 0) := by
      rw [item, List.getD_eq_getElem?_getD, List.getElem?_eq_getElem hi]
      rfl
    rw [items, hitem, ih fun l' hl => h l' (List.mem_cons_of_mem _ hl)]
    rfl

theorem populate_ok (obs : Observations UInt64) (n : Nat) (idx : List Nat)
    (h : ∀ l ∈ obs.location :: obs.measurement :: obs.uncorrelated :: obs.correlated, l.length = n)
    (hidx : ∀ i ∈ idx, i < n) :
    populate obs idx = .ok (idx.map fun i =>
      (obs.location :: obs.measurement :: obs.uncorrelated :: obs.correlated).map fun l => l.getD i 0) := by
  induction idx with
  | nil => rfl
  | cons i idx ih =>
    rw [populate, items_ok _ i fun l hl => by rw [h l hl]; exact hidx i List.mem_cons_self,
      ih fun j hj => hidx j (List.mem_cons_of_mem _ hj)]
    rfl

end Verif.Eustace.RawBinary
