import Verif.Spec.Encryption

/-!
  The MD5 message digest (RFC 1321) and the RC4 cipher, written from their descriptions.  They are what OpenSSL
  computes for the library; the theorems hold for any primitives with the laws of `Spec.Lawful`, these definitions show
  that the laws can be met and let concrete passwords be computed.
-/
namespace VPdf.Spec

/-- Rotation of a 32-bit word to the left. -/
def rotl (x s : Nat) : Nat := (x <<< s ||| x >>> (32 - s)) % 4294967296

/-- Bitwise complement of a 32-bit word. -/
def not32 (x : Nat) : Nat := 4294967295 - x

def md5Shifts : List Nat :=
  [7, 12, 17, 22, 7, 12, 17, 22, 7, 12, 17, 22, 7, 12, 17, 22, 5, 9, 14, 20, 5, 9, 14, 20, 5, 9, 14, 20, 5, 9, 14, 20,
   4, 11, 16, 23, 4, 11, 16, 23, 4, 11, 16, 23, 4, 11, 16, 23, 6, 10, 15, 21, 6, 10, 15, 21, 6, 10, 15, 21, 6, 10, 15, 21]

/-- The integer parts of `2^32 * |sin (i + 1)|`. -/
def md5Sines : List Nat :=
  [0xd76aa478, 0xe8c7b756, 0x242070db, 0xc1bdceee, 0xf57c0faf, 0x4787c62a, 0xa8304613, 0xfd469501,
   0x698098d8, 0x8b44f7af, 0xffff5bb1, 0x895cd7be, 0x6b901122, 0xfd987193, 0xa679438e, 0x49b40821,
   0xf61e2562, 0xc040b340, 0x265e5a51, 0xe9b6c7aa, 0xd62f105d, 0x02441453, 0xd8a1e681, 0xe7d3fbc8,
   0x21e1cde6, 0xc33707d6, 0xf4d50d87, 0x455a14ed, 0xa9e3e905, 0xfcefa3f8, 0x676f02d9, 0x8d2a4c8a,
   0xfffa3942, 0x8771f681, 0x6d9d6122, 0xfde5380c, 0xa4beea44, 0x4bdecfa9, 0xf6bb4b60, 0xbebfbc70,
   0x289b7ec6, 0xeaa127fa, 0xd4ef3085, 0x04881d05, 0xd9d4d039, 0xe6db99e5, 0x1fa27cf8, 0xc4ac5665,
   0xf4292244, 0x432aff97, 0xab9423a7, 0xfc93a039, 0x655b59c3, 0x8f0ccc92, 0xffeff47d, 0x85845dd1,
   0x6fa87e4f, 0xfe2ce6e0, 0xa3014314, 0x4e0811a1, 0xf7537e82, 0xbd3af235, 0x2ad7d2bb, 0xeb86d391]

structure Md5State where
  a : Nat
  b : Nat
  c : Nat
  d : Nat

/-- Step `i` on the words of a block. -/
def md5Step (words : List Nat) (s : Md5State) (i shift sine : Nat) : Md5State :=
  let (f, g) :=
    if i < 16 then ((s.b &&& s.c) ||| (not32 s.b &&& s.d), i)
    else if i < 32 then ((s.d &&& s.b) ||| (not32 s.d &&& s.c), (5 * i + 1) % 16)
    else if i < 48 then (s.b ^^^ s.c ^^^ s.d, (3 * i + 5) % 16)
    else (s.c ^^^ (s.b ||| not32 s.d), (7 * i) % 16)
  ⟨s.d, (s.b + rotl ((s.a + f + sine + words.getD g 0) % 4294967296) shift) % 4294967296, s.b, s.c⟩

/-- All steps. -/
def md5Steps (words : List Nat) : Nat → List Nat → List Nat → Md5State → Md5State
  | i, sh :: shs, si :: sis, s => md5Steps words (i + 1) shs sis (md5Step words s i sh si)
  | _, _, _, s => s

/-- Four bytes, low-order byte first. -/
def md5Words : List UInt8 → List Nat
  | a :: b :: c :: d :: r => (a.toNat + b.toNat * 256 + c.toNat * 65536 + d.toNat * 16777216) :: md5Words r
  | _ => []

def md5Block (s : Md5State) (block : List UInt8) : Md5State :=
  let t := md5Steps (md5Words block) 0 md5Shifts md5Sines s
  ⟨(s.a + t.a) % 4294967296, (s.b + t.b) % 4294967296, (s.c + t.c) % 4294967296, (s.d + t.d) % 4294967296⟩

def md5Blocks : Nat → List UInt8 → Md5State → Md5State
  | 0, _, s => s
  | n + 1, d, s => md5Blocks n (d.drop 64) (md5Block s (d.take 64))

/-- The message with a bit 1, zeros and its length in bits. -/
def md5Padded (d : List UInt8) : List UInt8 :=
  d ++ 0x80 :: List.replicate ((119 - d.length % 64) % 64) 0 ++ lowBytes 8 (d.length * 8)

def md5 (d : List UInt8) : List UInt8 :=
  let p := md5Padded d
  let s := md5Blocks (p.length / 64) p ⟨0x67452301, 0xefcdab89, 0x98badcfe, 0x10325476⟩
  lowBytes 4 s.a ++ lowBytes 4 s.b ++ lowBytes 4 s.c ++ lowBytes 4 s.d

/-- Byte `i` of a table of bytes held in one number, low-order byte first. -/
def tableGet (t i : Nat) : Nat := t >>> (8 * i) % 256

/-- The table with bytes `i` and `j` exchanged. -/
def tableSwap (t i j : Nat) : Nat :=
  t + tableGet t j <<< (8 * i) + tableGet t i <<< (8 * j) - tableGet t i <<< (8 * i) - tableGet t j <<< (8 * j)

/-- The table `0, 1, 2, ...`. -/
def tableInit : Nat → Nat
  | 0 => 0
  | n + 1 => tableInit n + n <<< (8 * n)

/-- The key scheduling of RC4: permute the 256 bytes. -/
def rc4Schedule (key : List UInt8) : Nat → Nat → Nat → Nat → Nat
  | 0, _, _, t => t
  | n + 1, i, j, t =>
    let j := (j + tableGet t i + (key.getD (i % key.length) 0).toNat) % 256
    rc4Schedule key n (i + 1) j (tableSwap t i j)

/-- The bytes of the key stream. -/
def rc4Generate : Nat → Nat → Nat → Nat → List UInt8
  | 0, _, _, _ => []
  | n + 1, i, j, t =>
    let i := (i + 1) % 256
    let j := (j + tableGet t i) % 256
    let t := tableSwap t i j
    UInt8.ofNat (tableGet t ((tableGet t i + tableGet t j) % 256)) :: rc4Generate n i j t

def rc4Stream (key : List UInt8) (n : Nat) : List UInt8 := rc4Generate n 0 0 (rc4Schedule key 256 0 0 (tableInit 256))

set_option maxRecDepth 100000 in
/-- RFC 1321, A.5. -/
example : md5 (b! "message digest") = [0xf9, 0x6b, 0x69, 0x7d, 0x7c, 0xb7, 0x93, 0x8d, 0x52, 0x5a, 0x2f, 0x31, 0xaa, 0xf1, 0x61, 0xd0] := by
  decide +kernel

set_option maxRecDepth 100000 in
/-- A known key stream. -/
example : xorBytes (b! "Plaintext") (rc4Stream (b! "Key") 9) = [0xBB, 0xF3, 0x16, 0xE8, 0xD9, 0x40, 0xAF, 0x0A, 0xD3] := by
  decide +kernel

end VPdf.Spec
