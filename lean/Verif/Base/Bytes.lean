import Mathlib.Tactic.Ring
import Mathlib.Tactic.Linarith

/-!
# Raw memory: little-endian integers

The C++ code reads and writes integers and doubles by copying their memory
representation.  On x86-64 that is little endian.
-/

namespace Spoc

/-- A byte sequence. -/
abbrev Bytes := List UInt8

/-- The memory representation of an unsigned integer of `k` bytes (little endian). -/
def leBytes : Nat → Nat → Bytes
  | 0, _ => []
  | k + 1, v => UInt8.ofNat v :: leBytes k (v / 256)

/-- The unsigned integer with a given little-endian memory representation. -/
def ofLe : Bytes → Nat
  | [] => 0
  | b :: bs => b.toNat + 256 * ofLe bs

@[simp] theorem leBytes_length (k v : Nat) : (leBytes k v).length = k := by
  induction k generalizing v with
  | zero => rfl
  | succ k ih => simp [leBytes, ih]

theorem ofLe_leBytes (k v : Nat) : ofLe (leBytes k v) = v % 256 ^ k := by
  induction k generalizing v with
  | zero => simp [leBytes, ofLe, Nat.mod_one]
  | succ k ih =>
    simp only [leBytes, ofLe, ih]
    rw [pow_succ, Nat.mul_comm (256 ^ k) 256, Nat.mod_mul]
    rw [UInt8.toNat_ofNat']

theorem ofLe_leBytes_of_lt {k v : Nat} (h : v < 256 ^ k) : ofLe (leBytes k v) = v := by
  rw [ofLe_leBytes, Nat.mod_eq_of_lt h]

theorem ofLe_lt (bs : Bytes) : ofLe bs < 256 ^ bs.length := by
  induction bs with
  | nil => simp [ofLe]
  | cons b bs ih =>
    simp only [ofLe, List.length_cons, pow_succ]
    have := b.toNat_lt
    omega

theorem leBytes_ofLe (bs : Bytes) : leBytes bs.length (ofLe bs) = bs := by
  induction bs with
  | nil => rfl
  | cons b bs ih =>
    have hb := b.toNat_lt
    simp only [List.length_cons, leBytes, ofLe]
    have h1 : (b.toNat + 256 * ofLe bs) / 256 = ofLe bs := by omega
    have h2 : UInt8.ofNat (b.toNat + 256 * ofLe bs) = b := by
      apply UInt8.toNat_inj.mp
      rw [UInt8.toNat_ofNat']
      omega
    rw [h1, ih, h2]

/-- Overwrite the beginning of a memory block with the delivered bytes: what a `read` into
the block leaves there. -/
def overlay (old new : Bytes) : Bytes := new ++ old.drop new.length

theorem overlay_length {old new : Bytes} (h : new.length ≤ old.length) :
    (overlay old new).length = old.length := by
  simp [overlay]; omega

@[simp] theorem overlay_nil (old : Bytes) : overlay old [] = old := by simp [overlay]

theorem overlay_full {old new : Bytes} (h : old.length ≤ new.length) : overlay old new = new := by
  simp [overlay, List.drop_eq_nil_of_le h]

/-- An input stream (`std::istream`): the bytes not yet consumed, and whether the stream is
`good ()` (neither end-of-file nor failure was recorded). -/
structure IStream where
  rest : Bytes
  good : Bool := true
  deriving DecidableEq, Repr

namespace IStream

/-- `s.read (ptr, n)`: the bytes delivered to the memory at `ptr`, and the stream afterwards.
A good stream with at least `n` bytes delivers `n`; with fewer it delivers all of them
and becomes bad; a bad stream delivers nothing. -/
def read (s : IStream) (n : Nat) : Bytes × IStream :=
  if s.good then
    if n ≤ s.rest.length then (s.rest.take n, { rest := s.rest.drop n, good := true })
    else (s.rest, { rest := [], good := false })
  else ([], s)

/-- `s.read` into memory that currently holds `old`, for `old.length` bytes. -/
def readInto (s : IStream) (old : Bytes) : Bytes × IStream :=
  let r := s.read old.length
  (overlay old r.1, r.2)

/-- `s.read` into an unsigned integer variable of `k` bytes that currently holds `old`. -/
def readUInt (s : IStream) (k : Nat) (old : Nat) : Nat × IStream :=
  let r := s.readInto (leBytes k old)
  (ofLe r.1, r.2)

theorem read_append {n : Nat} {xs ys : Bytes} (h : xs.length = n) :
    read { rest := xs ++ ys } n = (xs, { rest := ys }) := by
  simp [read, ← h]

theorem read_length_le (s : IStream) (n : Nat) : (s.read n).1.length ≤ n := by
  unfold read
  split
  · split
    · simp
    · simp; omega
  · simp

theorem readInto_append {old xs ys : Bytes} (h : xs.length = old.length) :
    readInto { rest := xs ++ ys } old = (xs, { rest := ys }) := by
  simp [readInto, read_append h, overlay_full (Nat.le_of_eq h.symm)]

theorem readInto_length (s : IStream) (old : Bytes) :
    (s.readInto old).1.length = old.length := by
  simp only [readInto]
  exact overlay_length (read_length_le s old.length)

theorem readUInt_append {k v old : Nat} {ys : Bytes} (h : v < 256 ^ k) :
    readUInt { rest := leBytes k v ++ ys } k old = (v, { rest := ys }) := by
  simp [readUInt, readInto_append (old := leBytes k old) (xs := leBytes k v) (ys := ys) (by simp),
    ofLe_leBytes_of_lt h]

theorem readUInt_lt (s : IStream) (k old : Nat) : (s.readUInt k old).1 < 256 ^ k := by
  have h := ofLe_lt (s.readInto (leBytes k old)).1
  rw [readInto_length, leBytes_length] at h
  exact h

end IStream

end Spoc
