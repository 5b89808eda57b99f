import Verif.Model.Recipients
import Verif.Spec.NameTree
/-
  Files encrypted for recipients (ISO 32000-1, 7.6.4).
-/
namespace VPdf.Spec

/-- The key of the file, ISO 32000-1, 7.6.4.3: the first `bits / 8` bytes of the digest of the seed, of all
recipient strings in order and, if the metadata are not encrypted, of four bytes 255. -/
def recipientFileKey (hash : Bytes → Bytes) (seed : Bytes) (strings : List Bytes) (metadata : Bool) (bits : Nat) : Bytes :=
  (hash (seed ++ strings.flatten ++ if metadata then [] else [255, 255, 255, 255])).take (bits / 8)

/-- The digest for the length and the algorithm (SHA-1; SHA-256 with keys of 256 bits, ISO 32000-2 for AESV3). -/
def digestOf (p : Pkcs7) (bits : Nat) (aes : Bool) : Bytes → Bytes := if bits = 256 ∧ aes then p.sha256 else p.sha1

/-- The array has these strings. -/
def StringArray (s : PStore) : List Obj → List Bytes → Prop
  | [], [] => True
  | o :: os, b :: bs => IsString s o b ∧ StringArray s os bs
  | _, _ => False

/-- The recipient has the certificate of the key. -/
def Mine (key : PrivateKey) (r : Recipient) : Prop := key.contains r.issuer r.serial = .ok true

/-- The recipient has another certificate. -/
def Foreign (key : PrivateKey) (r : Recipient) : Prop := key.contains r.issuer r.serial = .ok false

/-- The string is no envelope, one for others, or one with a cipher that is not supported. -/
def ForOthers (p : Pkcs7) (key : PrivateKey) (b : Bytes) : Prop :=
  p.parse b = none ∨ ∃ e, p.parse b = some e ∧
    ∀ r ∈ e.recipients, Foreign key r ∨ (e.keyLength = none ∧ Mine key r ∧ ∃ k, key.decrypt r.wrapped = .ok k)

/-- The string is an envelope for the key, and with the key, unwrapped to `k`, its content is `content`. -/
def OpensTo (p : Pkcs7) (key : PrivateKey) (b : Bytes) (content : Bytes) : Prop :=
  ∃ e before r after n k, p.parse b = some e ∧ e.recipients = before ++ r :: after ∧ (∀ x ∈ before, Foreign key x) ∧
    Mine key r ∧ e.keyLength = some n ∧ key.decrypt r.wrapped = .ok k ∧ n ≤ k.length ∧ content = p.decipher e (k.take n)

/-- The dictionary has these recipients, this length and this digest: in the dictionary itself for adbe.pkcs7.s3 and
adbe.pkcs7.s4, in the crypt filter for adbe.pkcs7.s5. -/
inductive ForRecipients (s : PStore) (d : Dict) : List Obj → Int → Bool → Prop where
  | plain (filter sub : Bytes) (os : List Obj) (bits : Int) :
      HasEntry s d (b! "Filter") (.name filter) → HasEntry s d (b! "SubFilter") (.name sub) →
      sub = b! "adbe.pkcs7.s3" ∨ sub = b! "adbe.pkcs7.s4" → HasEntry s d (b! "Length") (.int bits) →
      HasEntry s d (b! "Recipients") (.arr os) → ForRecipients s d os bits false
  | filter (filter : Bytes) (cf f : Dict) (method : Bytes) (os : List Obj) (bits : Int) :
      HasEntry s d (b! "Filter") (.name filter) → HasEntry s d (b! "SubFilter") (.name (b! "adbe.pkcs7.s5")) →
      HasEntry s d (b! "Length") (.int bits) → HasEntry s d (b! "CF") (.dict cf) →
      HasEntry s cf (b! "DefaultCryptFilter") (.dict f) → HasEntry s f (b! "CFM") (.name method) →
      method = b! "V2" ∨ method = b! "AESV2" → HasEntry s f (b! "Recipients") (.arr os) →
      ForRecipients s d os bits (decide (method = b! "AESV2"))
  | long (filter : Bytes) (cf f : Dict) (os : List Obj) :
      HasEntry s d (b! "Filter") (.name filter) → HasEntry s d (b! "SubFilter") (.name (b! "adbe.pkcs7.s5")) →
      Absent d (b! "Length") → HasEntry s d (b! "CF") (.dict cf) →
      HasEntry s cf (b! "DefaultCryptFilter") (.dict f) → HasEntry s f (b! "CFM") (.name (b! "AESV3")) →
      HasEntry s f (b! "Length") (.int 256) → HasEntry s f (b! "Recipients") (.arr os) →
      ForRecipients s d os 256 true

end VPdf.Spec
