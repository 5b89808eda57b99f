import Verif.Model.Encryption

/-!
  What the encryption of PDF documents is supposed to do (ISO 32000-1, 7.6), written without the functions of the
  library, and what is assumed of OpenSSL.
-/
namespace VPdf.Spec

/-- What is assumed of the primitives: an MD5 digest has 16 bytes, a key stream has the requested length, and the AES
block functions are inverse to each other on blocks of 16 bytes. -/
structure Lawful (k : Crypto) : Prop where
  md5_length : ∀ d, (k.md5 d).length = 16
  keystream_length : ∀ key n, (k.keystream key n).length = n
  blockEnc_length : ∀ key b, b.length = 16 → (k.blockEnc key b).length = 16
  blockDec_blockEnc : ∀ key b, b.length = 16 → k.blockDec key (k.blockEnc key b) = b

/-- The padding string of Algorithm 2, step a. -/
def passwordPadding : List UInt8 :=
  [0x28, 0xBF, 0x4E, 0x5E, 0x4E, 0x75, 0x8A, 0x41, 0x64, 0x00, 0x4E, 0x56, 0xFF, 0xFA, 0x01, 0x08,
   0x2E, 0x2E, 0x00, 0xB6, 0xD0, 0x68, 0x3E, 0x80, 0x2F, 0x0C, 0xA9, 0xFE, 0x64, 0x53, 0x69, 0x7A]

/-- Algorithm 2, step a: exactly 32 bytes, the password and then the padding string. -/
def paddedPassword (password : List UInt8) : List UInt8 := (password ++ passwordPadding).take 32

/-- The low-order `w` bytes of a number, low-order byte first. -/
def lowBytes : Nat → Nat → List UInt8
  | 0, _ => []
  | w + 1, n => UInt8.ofNat (n % 256) :: lowBytes w (n / 256)

/-- Algorithm 1, steps a and b: what is hashed to get the key of an object. -/
def objectKeyInput (key : List UInt8) (number generation : Nat) (aes : Bool) : List UInt8 :=
  key ++ lowBytes 3 number ++ lowBytes 2 generation ++ (if aes then [0x73, 0x41, 0x6C, 0x54] else [])

/-- RFC 2898: data padded to a multiple of 16 bytes by as many bytes as are missing, at least one, each holding their
number. -/
def pkcs7 (d : List UInt8) : List UInt8 :=
  d ++ List.replicate (16 - d.length % 16) (UInt8.ofNat (16 - d.length % 16))

/-- Cipher block chaining: each block is combined with the previous encrypted block, the first with the
initialisation vector. -/
def chained (enc : List UInt8 → List UInt8) : List UInt8 → List (List UInt8) → List UInt8
  | _, [] => []
  | iv, b :: bs =>
    let c := enc (List.zipWith (· ^^^ ·) b iv)
    c ++ chained enc c bs

/-- Algorithm 2 for handlers of revision 2 to 4: the key of a document from a padded password, the `O` and `P` entries
and the first document identifier; `n` is the length of the key in bytes. -/
def documentKey (md5 : List UInt8 → List UInt8) (padded owner documentId : List UInt8) (permissions : Nat)
    (revision : Int) (n : Nat) : List UInt8 :=
  let h := md5 (padded ++ owner ++ lowBytes 4 permissions ++ documentId)
  if revision ≥ 3 then (Nat.repeat (fun x => md5 (x.take n)) 50 h).take n else h.take n

/-- The RC4 cipher: data combined with the key stream. -/
def rc4 (k : Crypto) (key d : List UInt8) : List UInt8 := List.zipWith (· ^^^ ·) d (k.keystream key d.length)

/-- RC4 twenty times, each byte of the key combined with the number of the iteration from 0 to 19. -/
def rc4Twenty (k : Crypto) (key d : List UInt8) : List UInt8 :=
  (List.range 20).foldl (fun x i => rc4 k (key.map (· ^^^ UInt8.ofNat i)) x) d

/-- Algorithm 3: the `O` entry from the padded owner and user passwords; `n` is the length of the key in bytes. -/
def ownerEntry (k : Crypto) (paddedOwner paddedUser : List UInt8) (revision : Int) (n : Nat) : List UInt8 :=
  if revision ≥ 3 then rc4Twenty k ((Nat.repeat k.md5 50 (k.md5 paddedOwner)).take n) paddedUser
  else rc4 k ((k.md5 paddedOwner).take n) paddedUser

/-- Algorithms 4 and 5: the significant part of the `U` entry from the key of the document. -/
def userEntry (k : Crypto) (key documentId : List UInt8) (revision : Int) : List UInt8 :=
  if revision ≥ 3 then rc4Twenty k key (k.md5 (passwordPadding ++ documentId)) else rc4 k key passwordPadding

end VPdf.Spec

namespace VPdf.Spec

/-- Algorithm 7: what a padded owner password makes of the `O` entry (the padded user password, if it is right). -/
def ownerOpened (k : Crypto) (paddedOwner owner : List UInt8) (revision : Int) (n : Nat) : List UInt8 :=
  if revision ≥ 3 then
    (List.range 20).reverse.foldl
      (fun x i => rc4 k (((Nat.repeat k.md5 50 (k.md5 paddedOwner)).take n).map (· ^^^ UInt8.ofNat i)) x) owner
  else rc4 k ((k.md5 paddedOwner).take n) owner

/-- Algorithm 6: a padded user password is right when the `U` entry computed from it agrees with the one of the file,
in the first 16 bytes from revision 3 on, in all 32 bytes before. -/
def authenticates (k : Crypto) (padded owner user documentId : List UInt8) (permissions : Nat) (revision : Int) (n : Nat) :
    Prop :=
  userEntry k (documentKey k.md5 padded owner documentId permissions revision n) documentId revision =
    user.take (if revision ≥ 3 then 16 else 32)

end VPdf.Spec
