import Verif.Model.FormFields
/-
  Files that are encrypted for recipients: `File::SetEncryptionKey` (src/vanillapdf/syntax/files/file.cpp:238-317),
  `EncryptionUtils::GetRecipientKey` and `DecryptEnvelopedData` (syntax/utils/encryption.cpp:882-1095), the keys of
  utils/pkcs12_key.cpp and implementation/utils/c_encryption.cpp.

  OpenSSL (the structure of PKCS#7, ciphers, digests, RSA) is a parameter of the model.
-/
namespace VPdf

/-- `PKCS7_RECIP_INFO`: the printed issuer, the serial number and the wrapped key. encryption.cpp:997-1018. -/
structure Recipient where
  issuer : Bytes
  serial : Bytes
  wrapped : Bytes
  deriving DecidableEq

/-- `PKCS7_ENVELOPE`: its recipients, the length of the keys of its cipher (`none`: a cipher OpenSSL does not have) and
the encrypted content. encryption.cpp:993-1060. -/
structure Envelope where
  recipients : List Recipient
  keyLength : Option Nat
  content : Bytes
  deriving DecidableEq

/-- What OpenSSL does for the library in encryption.cpp:882-1095. -/
structure Pkcs7 where
  /-- `d2i_PKCS7_bio` and `PKCS7_type_is_enveloped`, encryption.cpp:980-991; `none` if one of them fails -/
  parse : Bytes → Option Envelope
  /-- all that `BIO_read` delivers, encryption.cpp:1069-1084, for a key of the length of the cipher -/
  decipher : Envelope → Bytes → Bytes
  sha1 : Bytes → Bytes
  sha256 : Bytes → Bytes

/-- `IEncryptionKey`, encryption.h: `ContainsPrivateKey` and `Decrypt`. -/
structure PrivateKey where
  contains : Bytes → Bytes → Res Bool
  decrypt : Bytes → Res Bytes

/-- The recipients of one envelope, encryption.cpp:995-1085.  `EVP_CipherInit_ex` reads as many bytes of the key as
the cipher has; without a cipher it fails and the next recipient is tried. -/
def tryRecipients (p : Pkcs7) (key : PrivateKey) (e : Envelope) : List Recipient → Res (Option Bytes)
  | [] => .ok none
  | r :: rs => do
    let mine ← key.contains r.issuer r.serial
    if mine then do
      let k ← key.decrypt r.wrapped
      match e.keyLength with
      | none => tryRecipients p key e rs
      | some n => if k.length < n then .error .ub else .ok (some (p.decipher e (k.take n)))
    else tryRecipients p key e rs

/-- A string of the array of recipients, `GetValue`, encryption.cpp:968, 927. -/
def recipientString (s : PStore) (o : Obj) : Res Bytes :=
  match derefOne s o with
  | .lit t => .ok t
  | .hex t => .ok t
  | _ => .error .conversion

/-- `EncryptionUtils::DecryptEnvelopedData`, encryption.cpp:962-1095. -/
def openEnvelopes (p : Pkcs7) (key : PrivateKey) (s : PStore) : List Obj → Res Bytes
  | [] => .error .throw
  | o :: os => do
    let b ← recipientString s o
    match p.parse b with
    | none => openEnvelopes p key s os
    | some e => do
      let r ← tryRecipients p key e e.recipients
      match r with
      | some d => .ok d
      | none => openEnvelopes p key s os

/-- The bytes of all strings, one after the other, encryption.cpp:925-934. -/
def recipientText (s : PStore) : List Obj → Res Bytes
  | [] => .ok []
  | o :: os => do
    let b ← recipientString s o
    let r ← recipientText s os
    .ok (b ++ r)

/-- `EncryptionUtils::GetRecipientKey`, encryption.cpp:882-959; `aes` tells whether the algorithm is AES.  Twenty bytes
of the content are read, whatever its size. -/
def recipientKey (p : Pkcs7) (key : PrivateKey) (s : PStore) (recipients : List Obj) (bits : Int) (aes : Bool) :
    Res Bytes := do
  let content ← openEnvelopes p key s recipients
  if content.length < 20 then .error .ub
  else do
    let text ← recipientText s recipients
    let input := content.take 20 ++ text
    let digest := if bits = 256 ∧ aes then p.sha256 input else p.sha1 input
    let n ← (if bits.tdiv 8 < 0 then .error .conversion else .ok (bits.tdiv 8).toNat)
    .ok (digest.take n)

/-- `FindAs<IntegerObjectPtr>` behind `Contains`, file.cpp:250-253, 289-290. -/
def lengthEntry (s : PStore) (d : Dict) (k : Bytes) (default : Int) : Res Int :=
  match mapFind k d with
  | none => .ok default
  | some _ => do
    match ← treeEntry s d k with
    | .int n => pure n
    | _ => .error .conversion

/-- The crypt filter, file.cpp:278-305: the recipients, the length of the key and whether the algorithm is AES. -/
def filterRecipients (s : PStore) (f : Dict) (bits : Int) : Res (List Obj × Int × Bool) := do
  let method ← nameEntry s f (b! "CFM")
  match method with
  | none => .ok ([], bits, false)
  | some m => do
    let bits' ← (if m = b! "AESV3" then lengthEntry s f (b! "Length") bits else .ok bits)
    let recipients ← treeArray s f (b! "Recipients")
    .ok (recipients, bits', m = b! "AESV2" ∨ m = b! "AESV3")

/-- The crypt filter `DefaultCryptFilter` of a dictionary, file.cpp:265-306. -/
def defaultFilter (s : PStore) (d : Dict) (bits : Int) : Res (List Obj × Int × Bool) := do
  let cf ← dictEntry s d (b! "CF")
  match cf with
  | none => .ok ([], bits, false)
  | some c => do
    let f ← dictEntry s c (b! "DefaultCryptFilter")
    match f with
    | none => .ok ([], bits, false)
    | some f => filterRecipients s f bits

/-- A name that has to be there: `FindAs<NameObjectPtr>`, file.cpp:246-247. -/
def requiredName (s : PStore) (d : Dict) (k : Bytes) : Res Bytes := do
  match ← treeEntry s d k with
  | .name n => pure n
  | _ => .error .conversion

/-- What `SetEncryptionKey` reads, file.cpp:245-306. -/
def recipientSettings (s : PStore) (d : Dict) : Res (List Obj × Int × Bool) := do
  let _ ← requiredName s d (b! "Filter")
  let sub ← requiredName s d (b! "SubFilter")
  let bits ← lengthEntry s d (b! "Length") 40
  if sub = b! "adbe.pkcs7.s3" ∨ sub = b! "adbe.pkcs7.s4" then do
    let r ← treeArray s d (b! "Recipients")
    .ok (r, bits, false)
  else if sub = b! "adbe.pkcs7.s5" then defaultFilter s d bits
  else .ok ([], bits, false)

/-- `File::SetEncryptionKey`, file.cpp:238-317: the answer and the key the file keeps.  `old` is the key it had;
`d` is the encryption dictionary of the file, if there is one.  All exceptions of `GetRecipientKey` are caught. -/
def setKey (p : Pkcs7) (key : PrivateKey) (s : PStore) (d : Option Dict) (old : Option Bytes) :
    Res (Bool × Option Bytes) :=
  match d with
  | none => .ok (false, old)
  | some d => do
    let x ← recipientSettings s d
    match recipientKey p key s x.1 x.2.1 x.2.2 with
    | .ok k => .ok (true, some k)
    | .error .ub => .error .ub
    | .error _ => .ok (false, old)

/-- `PKCS12Key`, pkcs12_key.cpp:182-259: one certificate with its private key.  `rsa` is RSA with a modulus of `size`
bytes: the message, if the padding is right.  The buffer of `size` bytes is not cut to the length of the message. -/
def pkcs12 (issuer serial : Bytes) (size : Nat) (rsa : Bytes → Option Bytes) : PrivateKey where
  contains i n := .ok (decide (issuer = i ∧ serial = n))
  decrypt c :=
    match rsa c with
    | none => .error .throw
    | some m => .ok (m ++ List.replicate (size - m.length) 0)

end VPdf
