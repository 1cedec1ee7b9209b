import Verif.Prims.Digest
/-
  DES (FIPS 46-3, encryption of one block) and RC4, the ciphers behind crypto/des.rs:33-40 and crypto.rs:110-111.  The code of
  the crates `des` and `rc4` is not in /repo; these are written from the standards and checked against the vectors of the
  repository's unit tests (`Verif.Check.Vectors`).
-/
namespace Ntlm.Cipher

open Digest (force)

/-- Big-endian number of a byte sequence. -/
def beNat (l : List UInt8) : Nat := l.foldl (fun n b => 256 * n + b.toNat) 0

/-- The bits of an `n`-bit number chosen by a table; bit 1 is the most significant one (FIPS 46-3). -/
def select (n : Nat) (table : List Nat) (x : Nat) : Nat :=
  table.foldl (fun y i => force (2 * y + (x >>> (n - i)) % 2) id) 0

/-- FIPS 46-3: the initial permutation. -/
def IP : List Nat := [
  58, 50, 42, 34, 26, 18, 10, 2, 60, 52, 44, 36, 28, 20, 12, 4, 62, 54, 46, 38, 30, 22, 14, 6, 64, 56, 48, 40, 32, 24, 16, 8,
  57, 49, 41, 33, 25, 17, 9, 1, 59, 51, 43, 35, 27, 19, 11, 3, 61, 53, 45, 37, 29, 21, 13, 5, 63, 55, 47, 39, 31, 23, 15, 7]

/-- FIPS 46-3: the inverse of the initial permutation. -/
def FP : List Nat := [
  40, 8, 48, 16, 56, 24, 64, 32, 39, 7, 47, 15, 55, 23, 63, 31, 38, 6, 46, 14, 54, 22, 62, 30, 37, 5, 45, 13, 53, 21, 61, 29,
  36, 4, 44, 12, 52, 20, 60, 28, 35, 3, 43, 11, 51, 19, 59, 27, 34, 2, 42, 10, 50, 18, 58, 26, 33, 1, 41, 9, 49, 17, 57, 25]

/-- FIPS 46-3: the expansion `E`. -/
def E : List Nat := [
  32, 1, 2, 3, 4, 5, 4, 5, 6, 7, 8, 9, 8, 9, 10, 11, 12, 13, 12, 13, 14, 15, 16, 17,
  16, 17, 18, 19, 20, 21, 20, 21, 22, 23, 24, 25, 24, 25, 26, 27, 28, 29, 28, 29, 30, 31, 32, 1]

/-- FIPS 46-3: the permutation `P`. -/
def PERM : List Nat := [
  16, 7, 20, 21, 29, 12, 28, 17, 1, 15, 23, 26, 5, 18, 31, 10, 2, 8, 24, 14, 32, 27, 3, 9, 19, 13, 30, 6, 22, 11, 4, 25]

/-- FIPS 46-3: permuted choice 1. -/
def PC1 : List Nat := [
  57, 49, 41, 33, 25, 17, 9, 1, 58, 50, 42, 34, 26, 18, 10, 2, 59, 51, 43, 35, 27, 19, 11, 3, 60, 52, 44, 36,
  63, 55, 47, 39, 31, 23, 15, 7, 62, 54, 46, 38, 30, 22, 14, 6, 61, 53, 45, 37, 29, 21, 13, 5, 28, 20, 12, 4]

/-- FIPS 46-3: permuted choice 2. -/
def PC2 : List Nat := [
  14, 17, 11, 24, 1, 5, 3, 28, 15, 6, 21, 10, 23, 19, 12, 4, 26, 8, 16, 7, 27, 20, 13, 2,
  41, 52, 31, 37, 47, 55, 30, 40, 51, 45, 33, 48, 44, 49, 39, 56, 34, 53, 46, 42, 50, 36, 29, 32]

/-- FIPS 46-3: the left shifts of the key schedule. -/
def SHIFTS : List Nat := [1, 1, 2, 2, 2, 2, 2, 2, 1, 2, 2, 2, 2, 2, 2, 1]

/-- FIPS 46-3: the selection functions, four rows of sixteen each. -/
def SBOX : List (List Nat) := [
  [14, 4, 13, 1, 2, 15, 11, 8, 3, 10, 6, 12, 5, 9, 0, 7, 0, 15, 7, 4, 14, 2, 13, 1, 10, 6, 12, 11, 9, 5, 3, 8,
   4, 1, 14, 8, 13, 6, 2, 11, 15, 12, 9, 7, 3, 10, 5, 0, 15, 12, 8, 2, 4, 9, 1, 7, 5, 11, 3, 14, 10, 0, 6, 13],
  [15, 1, 8, 14, 6, 11, 3, 4, 9, 7, 2, 13, 12, 0, 5, 10, 3, 13, 4, 7, 15, 2, 8, 14, 12, 0, 1, 10, 6, 9, 11, 5,
   0, 14, 7, 11, 10, 4, 13, 1, 5, 8, 12, 6, 9, 3, 2, 15, 13, 8, 10, 1, 3, 15, 4, 2, 11, 6, 7, 12, 0, 5, 14, 9],
  [10, 0, 9, 14, 6, 3, 15, 5, 1, 13, 12, 7, 11, 4, 2, 8, 13, 7, 0, 9, 3, 4, 6, 10, 2, 8, 5, 14, 12, 11, 15, 1,
   13, 6, 4, 9, 8, 15, 3, 0, 11, 1, 2, 12, 5, 10, 14, 7, 1, 10, 13, 0, 6, 9, 8, 7, 4, 15, 14, 3, 11, 5, 2, 12],
  [7, 13, 14, 3, 0, 6, 9, 10, 1, 2, 8, 5, 11, 12, 4, 15, 13, 8, 11, 5, 6, 15, 0, 3, 4, 7, 2, 12, 1, 10, 14, 9,
   10, 6, 9, 0, 12, 11, 7, 13, 15, 1, 3, 14, 5, 2, 8, 4, 3, 15, 0, 6, 10, 1, 13, 8, 9, 4, 5, 11, 12, 7, 2, 14],
  [2, 12, 4, 1, 7, 10, 11, 6, 8, 5, 3, 15, 13, 0, 14, 9, 14, 11, 2, 12, 4, 7, 13, 1, 5, 0, 15, 10, 3, 9, 8, 6,
   4, 2, 1, 11, 10, 13, 7, 8, 15, 9, 12, 5, 6, 3, 0, 14, 11, 8, 12, 7, 1, 14, 2, 13, 6, 15, 0, 9, 10, 4, 5, 3],
  [12, 1, 10, 15, 9, 2, 6, 8, 0, 13, 3, 4, 14, 7, 5, 11, 10, 15, 4, 2, 7, 12, 9, 5, 6, 1, 13, 14, 0, 11, 3, 8,
   9, 14, 15, 5, 2, 8, 12, 3, 7, 0, 4, 10, 1, 13, 11, 6, 4, 3, 2, 12, 9, 5, 15, 10, 11, 14, 1, 7, 6, 0, 8, 13],
  [4, 11, 2, 14, 15, 0, 8, 13, 3, 12, 9, 7, 5, 10, 6, 1, 13, 0, 11, 7, 4, 9, 1, 10, 14, 3, 5, 12, 2, 15, 8, 6,
   1, 4, 11, 13, 12, 3, 7, 14, 10, 15, 6, 8, 0, 5, 9, 2, 6, 11, 13, 8, 1, 4, 10, 7, 9, 5, 0, 15, 14, 2, 3, 12],
  [13, 2, 8, 4, 6, 15, 11, 1, 10, 9, 3, 14, 5, 0, 12, 7, 1, 15, 13, 8, 10, 3, 7, 4, 12, 5, 6, 11, 0, 14, 9, 2,
   7, 11, 4, 1, 9, 12, 14, 2, 0, 6, 10, 13, 15, 3, 5, 8, 2, 1, 14, 7, 4, 10, 8, 13, 15, 12, 9, 0, 3, 5, 6, 11]]

/-- The output of the eight selection functions on a 48-bit number. -/
def sboxes (x : Nat) : Nat :=
  (List.range 8).foldl (fun y i =>
    force ((x >>> (42 - 6 * i)) % 64) fun v =>
    force (16 * y + (SBOX.getD i []).getD (32 * (v / 32) + 16 * (v % 2) + v / 2 % 16) 0) id) 0

/-- FIPS 46-3: the cipher function `f(R, K)`. -/
def feistel (r k : Nat) : Nat :=
  force (select 32 E r ^^^ k) fun x => force (sboxes x) fun y => select 32 PERM y

/-- Left rotation of a 28-bit number. -/
def rot28 (x s : Nat) : Nat := (x <<< s) % 268435456 ||| (x >>> (28 - s))

/-- The sixteen rounds with the key schedule: halves `c d` of the key and `l r` of the block. -/
def rounds : List Nat → Nat → Nat → Nat → Nat → Nat
  | [], _, _, l, r => r * 4294967296 + l
  | s :: ss, c, d, l, r =>
    force (rot28 c s) fun c => force (rot28 d s) fun d =>
    force (select 56 PC2 (c * 268435456 + d)) fun k =>
    force (l ^^^ feistel r k) fun r' => rounds ss c d r r'

/-- Big-endian bytes of a number. -/
def beBytes : Nat → Nat → List UInt8
  | 0, _ => []
  | k + 1, n => UInt8.ofNat (n / 256 ^ k % 256) :: beBytes k n

theorem beBytes_length (k n : Nat) : (beBytes k n).length = k := by
  induction k with
  | zero => rfl
  | succ k ih => simp [beBytes, ih]

/-- DES encryption of one block, as used by crypto/des.rs:33-40. -/
def desBlock (key data : Bytes 8) : Bytes 8 :=
  ⟨force (select 64 PC1 (beNat key.val)) fun k => force (select 64 IP (beNat data.val)) fun x =>
    force (rounds SHIFTS (k / 268435456) (k % 268435456) (x / 4294967296) (x % 4294967296)) fun y =>
    force (select 64 FP y) fun z => beBytes 8 z, by simp only [Digest.force_eq, beBytes_length]⟩

/-- Byte `i` of the RC4 permutation, which is a number with 256 digits of base 256. -/
def sGet (s i : Nat) : Nat := (s >>> (8 * i)) % 256

/-- Exchange bytes `i` and `j`. -/
def sSwap (s i j : Nat) : Nat :=
  force (sGet s i ^^^ sGet s j) fun d => s ^^^ ((d <<< (8 * i)) ^^^ (d <<< (8 * j)))

/-- RC4 key schedule, from step `i` on (`n` steps left), with a key of 16 bytes. -/
def ksa (key : List UInt8) : Nat → Nat → Nat → Nat → Nat
  | 0, _, _, s => s
  | n + 1, i, j, s =>
    force ((j + sGet s i + (key.getD (i % 16) 0).toNat) % 256) fun j =>
    force (sSwap s i j) fun s => force (i + 1) fun i => ksa key n i j s

/-- RC4 output: `n` more bytes. -/
def prga : Nat → Nat → Nat → Nat → List UInt8
  | 0, _, _, _ => []
  | n + 1, i, j, s =>
    force ((i + 1) % 256) fun i => force ((j + sGet s i) % 256) fun j =>
    force (sSwap s i j) fun s =>
      force (sGet s ((sGet s i + sGet s j) % 256)) fun v => UInt8.ofNat v :: prga n i j s

theorem prga_length (n i j s : Nat) : (prga n i j s).length = n := by
  induction n generalizing i j s with
  | zero => rfl
  | succ n ih => simp [prga, Digest.force_eq, ih]

/-- The identity permutation. -/
def sInit : Nat := (List.range 256).foldr (fun i s => 256 * s + i) 0

/-- The first 16 bytes of the RC4 key stream for a key of 16 bytes, as used by crypto.rs:110-111. -/
def rc4Keystream (key : Bytes 16) : Bytes 16 :=
  ⟨force sInit fun s => force (ksa key.val 256 0 0 s) fun s => prga 16 0 0 s, by
    simp only [Digest.force_eq, prga_length]⟩

end Ntlm.Cipher

namespace Ntlm

/-- The primitives the crate is linked with. -/
def Prims.std : Prims where
  md4 := Digest.md4
  md5 := Digest.md5
  hmacMd5 := Digest.hmacMd5
  desBlock := Cipher.desBlock
  rc4Keystream := Cipher.rc4Keystream

end Ntlm
