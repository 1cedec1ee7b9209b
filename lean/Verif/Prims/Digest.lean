import Verif.Model.Crypto
/-
  MD4 (RFC 1320), MD5 (RFC 1321) and HMAC-MD5 (RFC 2104), the digests behind crypto.rs:24-44.  The code of the crates
  `md4`, `md5` and `hmac` is not in /repo; these are written from the RFCs and checked against the vectors of the repository's
  unit tests (`Verif.Check.Vectors`).  Words are natural numbers below 2^32.
-/
namespace Ntlm.Digest

/-- `k n`, but a reduction of this term first evaluates `n` to a numeral. -/
def force {α : Type} (n : Nat) (k : Nat → α) : α :=
  match n with
  | 0 => k 0
  | m + 1 => k (m + 1)

theorem force_eq {α : Type} (n : Nat) (k : Nat → α) : force n k = k n := by cases n <;> rfl

/-- Addition of 32-bit words. -/
def add (a b : Nat) : Nat := (a + b) % 4294967296
/-- Complement of a 32-bit word. -/
def compl (a : Nat) : Nat := 4294967295 - a
/-- Rotation of a 32-bit word to the left. -/
def rotl (a s : Nat) : Nat := (a <<< s) % 4294967296 ||| (a >>> (32 - s))

/-- The little-endian words of a byte sequence. -/
def words : List UInt8 → List Nat
  | a :: b :: c :: d :: r => (a.toNat + 256 * b.toNat + 65536 * c.toNat + 16777216 * d.toNat) :: words r
  | _ => []

/-- Padding: 0x80, zeros up to 56 modulo 64, the length in bits on eight bytes (little-endian). -/
def padding (m : List UInt8) : List UInt8 :=
  m ++ 0x80 :: (List.replicate ((119 - m.length % 64) % 64) 0 ++ leBytes 8 (8 * m.length))

/-- State of both digests. -/
structure State where
  a : Nat
  b : Nat
  c : Nat
  d : Nat
  deriving DecidableEq, Repr

/-- Component-wise addition. -/
def State.add (s t : State) : State :=
  force (Digest.add s.a t.a) fun a => force (Digest.add s.b t.b) fun b =>
  force (Digest.add s.c t.c) fun c => force (Digest.add s.d t.d) fun d => ⟨a, b, c, d⟩

/-- The initial state (RFC 1320 / RFC 1321, 3.3). -/
def State.init : State := ⟨0x67452301, 0xefcdab89, 0x98badcfe, 0x10325476⟩

/-- The digest as bytes. -/
def State.bytes (s : State) : Bytes 16 :=
  ⟨leBytes 4 s.a ++ (leBytes 4 s.b ++ (leBytes 4 s.c ++ leBytes 4 s.d)), rfl⟩

/-- One step of a round: mixing function `f`, message word, constant, rotation, and whether `b` is added (MD5). -/
structure Op where
  f : Nat → Nat → Nat → Nat
  k : Nat
  t : Nat
  s : Nat
  plusB : Bool

/-- Step: `a := (a + f b c d + x[k] + t) <<< s (+ b)`, then rotate the registers. -/
def Op.step (x : List Nat) (s : State) (o : Op) : State :=
  force (rotl (add (add s.a (o.f s.b s.c s.d)) (add (x.getD o.k 0) o.t)) o.s) fun v =>
  force (if o.plusB then add s.b v else v) fun v => ⟨s.d, v, s.b, s.c⟩

/-- All steps on one block, added to the previous state. -/
def block (ops : List Op) (s : State) (x : List Nat) : State := s.add (ops.foldl (Op.step x) s)

/-- The blocks of a padded message, as words (`fuel` is any bound on their number). -/
def blocks (ops : List Op) : Nat → List Nat → State → State
  | 0, _, s => s
  | _ + 1, [], s => s
  | fuel + 1, x, s => blocks ops fuel (x.drop 16) (block ops s x)

/-- Digest of a message. -/
def digest (ops : List Op) (m : List UInt8) : Bytes 16 :=
  (blocks ops (m.length / 64 + 2) (words (padding m)) State.init).bytes

/-- RFC 1320, 3.4 -/
def F (x y z : Nat) : Nat := (x &&& y) ||| (compl x &&& z)
/-- RFC 1320, 3.4 -/
def G4 (x y z : Nat) : Nat := (x &&& y) ||| ((x &&& z) ||| (y &&& z))
/-- RFC 1320, 3.4 -/
def H (x y z : Nat) : Nat := x ^^^ (y ^^^ z)
/-- RFC 1321, 3.4 -/
def G5 (x y z : Nat) : Nat := (x &&& z) ||| (y &&& compl z)
/-- RFC 1321, 3.4 -/
def I (x y z : Nat) : Nat := y ^^^ (x ||| compl z)

/-- RFC 1320, 3.4: the 48 steps. -/
def md4Ops : List Op :=
  let round (f : Nat → Nat → Nat → Nat) (t : Nat) (ks ss : List Nat) : List Op :=
    (ks.zip (ss ++ ss ++ ss ++ ss)).map fun p => ⟨f, p.1, t, p.2, false⟩
  round F 0 [0, 1, 2, 3, 4, 5, 6, 7, 8, 9, 10, 11, 12, 13, 14, 15] [3, 7, 11, 19] ++
  round G4 0x5a827999 [0, 4, 8, 12, 1, 5, 9, 13, 2, 6, 10, 14, 3, 7, 11, 15] [3, 5, 9, 13] ++
  round H 0x6ed9eba1 [0, 8, 4, 12, 2, 10, 6, 14, 1, 9, 5, 13, 3, 11, 7, 15] [3, 9, 11, 15]

/-- RFC 1321, 3.4: the table `T`. -/
def md5T : List Nat := [
  0xd76aa478, 0xe8c7b756, 0x242070db, 0xc1bdceee, 0xf57c0faf, 0x4787c62a, 0xa8304613, 0xfd469501,
  0x698098d8, 0x8b44f7af, 0xffff5bb1, 0x895cd7be, 0x6b901122, 0xfd987193, 0xa679438e, 0x49b40821,
  0xf61e2562, 0xc040b340, 0x265e5a51, 0xe9b6c7aa, 0xd62f105d, 0x02441453, 0xd8a1e681, 0xe7d3fbc8,
  0x21e1cde6, 0xc33707d6, 0xf4d50d87, 0x455a14ed, 0xa9e3e905, 0xfcefa3f8, 0x676f02d9, 0x8d2a4c8a,
  0xfffa3942, 0x8771f681, 0x6d9d6122, 0xfde5380c, 0xa4beea44, 0x4bdecfa9, 0xf6bb4b60, 0xbebfbc70,
  0x289b7ec6, 0xeaa127fa, 0xd4ef3085, 0x04881d05, 0xd9d4d039, 0xe6db99e5, 0x1fa27cf8, 0xc4ac5665,
  0xf4292244, 0x432aff97, 0xab9423a7, 0xfc93a039, 0x655b59c3, 0x8f0ccc92, 0xffeff47d, 0x85845dd1,
  0x6fa87e4f, 0xfe2ce6e0, 0xa3014314, 0x4e0811a1, 0xf7537e82, 0xbd3af235, 0x2ad7d2bb, 0xeb86d391]

/-- RFC 1321, 3.4: the 64 steps. -/
def md5Ops : List Op :=
  let round (f : Nat → Nat → Nat → Nat) (ts ks ss : List Nat) : List Op :=
    (ts.zip (ks.zip (ss ++ ss ++ ss ++ ss))).map fun p => ⟨f, p.2.1, p.1, p.2.2, true⟩
  round F (md5T.take 16) [0, 1, 2, 3, 4, 5, 6, 7, 8, 9, 10, 11, 12, 13, 14, 15] [7, 12, 17, 22] ++
  round G5 ((md5T.drop 16).take 16) [1, 6, 11, 0, 5, 10, 15, 4, 9, 14, 3, 8, 13, 2, 7, 12] [5, 9, 14, 20] ++
  round H ((md5T.drop 32).take 16) [5, 8, 11, 14, 1, 4, 7, 10, 13, 0, 3, 6, 9, 12, 15, 2] [4, 11, 16, 23] ++
  round I (md5T.drop 48) [0, 7, 14, 5, 12, 3, 10, 1, 8, 15, 6, 13, 4, 11, 2, 9] [6, 10, 15, 21]

/-- MD4, as used by crypto.rs:24-29. -/
def md4 (m : List UInt8) : Bytes 16 := digest md4Ops m

/-- MD5, as used by crypto.rs:31-36. -/
def md5 (m : List UInt8) : Bytes 16 := digest md5Ops m

/-- HMAC-MD5 (RFC 2104), as used by crypto.rs:38-44. -/
def hmacMd5 (key m : List UInt8) : Bytes 16 :=
  let key := if key.length ≤ 64 then key else (md5 key).val
  let key := key ++ List.replicate (64 - key.length) 0
  md5 (key.map (· ^^^ 0x5c) ++ (md5 (key.map (· ^^^ 0x36) ++ m)).val)

end Ntlm.Digest
