import Verif.Model.Ints
import Verif.Model.Filters

/-!
  Encryption of strings and streams (syntax/utils/encryption.cpp, syntax/files/file.cpp) and the standard security
  handler.  OpenSSL is a parameter of the model: the digest, the RC4 key stream and the AES block functions are the
  fields of `Crypto`; the modes of operation and paddings around them, which the library chooses, are modelled.
  Random bytes (initialisation vectors, the arbitrary half of the `U` entry) are arguments.
-/
namespace VPdf

/-- The primitives taken from OpenSSL. Called from encryption.cpp:51-476 (EVP functions). -/
structure Crypto where
  /-- `EVP_md5` of the concatenation of all updates -/
  md5 : Bytes → Bytes
  /-- the first `n` bytes of the RC4 key stream of a key -/
  keystream : Bytes → Nat → Bytes
  /-- AES of one block under a key of 16 or 32 bytes -/
  blockEnc : Bytes → Bytes → Bytes
  /-- its inverse -/
  blockDec : Bytes → Bytes → Bytes

/-- `EncryptionAlgorithm` (syntax/utils/encryption.h:15-20). -/
inductive Algorithm where
  | undefined | none | rc4 | aes
  deriving DecidableEq, Repr

/-- `HARDCODED_PDF_PAD` (syntax/utils/encryption.cpp:33-42). -/
def passwordPad : Bytes :=
  [0x28, 0xBF, 0x4E, 0x5E, 0x4E, 0x75, 0x8A, 0x41, 0x64, 0x00, 0x4E, 0x56, 0xFF, 0xFA, 0x01, 0x08,
   0x2E, 0x2E, 0x00, 0xB6, 0xD0, 0x68, 0x3E, 0x80, 0x2F, 0x0C, 0xA9, 0xFE, 0x64, 0x53, 0x69, 0x7A]

/-- `AES_ADDITIONAL_SALT` (syntax/utils/encryption.cpp:44-46). -/
def aesSalt : Bytes := [0x73, 0x41, 0x6C, 0x54]

/-- `PadTruncatePassword` (syntax/utils/encryption.cpp:128-134).  The count of the second copy is the unsigned
64-bit difference `32 - size`; a copy that reads past the padding or writes past the 32 bytes of the result is
undefined behaviour. -/
def padTruncate (password : Bytes) : Res Bytes :=
  let size := password.length
  let head := password.take (min size 32)
  let count := (2 ^ 64 + 32 - size) % 2 ^ 64
  if count > passwordPad.length ∨ size + count > 32 then .error .ub
  else .ok (head ++ passwordPad.take count)

/-- Byte-wise exclusive or.
Part of the CBC mode behind encryption.cpp:274-476 and of the stream cipher behind encryption.cpp:140-224. -/
def xorBytes (a b : Bytes) : Bytes := List.zipWith (· ^^^ ·) a b

/-- `key[j] = digest[j] ^ i` (syntax/utils/encryption.cpp:601-605, 790-794, 1189-1193). -/
def xorKey (key : Bytes) (i : Nat) : Bytes := key.map (· ^^^ UInt8.ofNat i)

/-- `ComputeRC4(key, key_length, data)` (syntax/utils/encryption.cpp:140-224): OpenSSL reads `key_length` bytes of
the key (beyond its end: undefined behaviour); lengths are converted to `int`. -/
def computeRC4 (k : Crypto) (key : Bytes) (keyLength : Nat) (data : Bytes) : Res Bytes := do
  let _ ← safeConvert .i32 .u64 keyLength
  if key.length < keyLength then .error .ub
  else do
    let _ ← safeConvert .i32 .u64 data.length
    .ok (xorBytes data (k.keystream (key.take keyLength) data.length))

/-- The bytes added to the key for an object (syntax/utils/encryption.cpp:60-65). -/
def objectInfo (number generation : Nat) : Bytes :=
  [UInt8.ofNat number, UInt8.ofNat (number >>> 8), UInt8.ofNat (number >>> 16),
   UInt8.ofNat generation, UInt8.ofNat (generation >>> 8)]

/-- `ComputeObjectKey` (syntax/utils/encryption.cpp:51-126). -/
def computeObjectKey (k : Crypto) (key : Bytes) (number generation : Nat) (alg : Algorithm) : Bytes :=
  (k.md5 (key ++ objectInfo number generation ++ (if alg = .aes then aesSalt else []))).take (min (key.length + 5) 16)

/-! ### AES in cipher block chaining mode -/

/-- OpenSSL's CBC encryption of `n` blocks. Called from encryption.cpp:381-476. -/
def cbcEnc (enc : Bytes → Bytes) : Nat → Bytes → Bytes → Bytes
  | 0, _, _ => []
  | n + 1, iv, d =>
    let c := enc (xorBytes (d.take 16) iv)
    c ++ cbcEnc enc n c (d.drop 16)

/-- OpenSSL's CBC decryption of `n` blocks. Called from encryption.cpp:274-375. -/
def cbcDec (dec : Bytes → Bytes) : Nat → Bytes → Bytes → Bytes
  | 0, _, _ => []
  | n + 1, iv, d => xorBytes (dec (d.take 16)) iv ++ cbcDec dec n (d.take 16) (d.drop 16)

/-- `EVP_EncryptUpdate` and `EVP_EncryptFinal` with OpenSSL's own padding, which `AESEncrypt` leaves switched on
(syntax/utils/encryption.cpp:434-459). -/
def evpEncrypt (enc : Bytes → Bytes) (iv d : Bytes) : Bytes :=
  let q := 16 - d.length % 16
  cbcEnc enc ((d.length + q) / 16) iv (d ++ List.replicate q (UInt8.ofNat q))

/-- `EVP_DecryptUpdate` and `EVP_DecryptFinal` with the padding switched off (syntax/utils/encryption.cpp:325-362):
the last call fails unless the length is a multiple of the block size. -/
def evpDecrypt (dec : Bytes → Bytes) (iv d : Bytes) : Res Bytes :=
  if d.length % 16 ≠ 0 then .error .throw else .ok (cbcDec dec (d.length / 16) iv d)

/-- `AddPkcs7Padding` with blocks of 16 bytes (syntax/utils/encryption.cpp:478-492). -/
def addPadding (d : Bytes) : Bytes :=
  let r := if d.length % 16 = 0 then 16 else d.length % 16
  d ++ List.replicate r (UInt8.ofNat r)

/-- `RemovePkcs7Padding` with blocks of 16 bytes (syntax/utils/encryption.cpp:494-531). -/
def removePadding (d : Bytes) : Bytes :=
  match d.getLast? with
  | none => d
  | some b =>
    let c := b.toNat
    if d.length < c ∨ c > 16 then d
    else if (d.drop (d.length - c)).all (· == b) then d.take (d.length - c)
    else d

/-- `AESEncrypt(key, key_length, data)` (syntax/utils/encryption.cpp:381-476); `iv` are the 16 random bytes. -/
def aesEncrypt (k : Crypto) (key : Bytes) (keyLength : Nat) (iv data : Bytes) : Res Bytes :=
  if data = [] then .ok []
  else
    let padded := addPadding data
    if keyLength ≠ 16 ∧ keyLength ≠ 32 then .error .throw
    else if key.length < keyLength then .error .ub
    else do
      let _ ← safeConvert .i32 .u64 padded.length
      let out := evpEncrypt (k.blockEnc (key.take keyLength)) iv padded
      if padded.length + 16 < out.length then .error .ub
      else .ok (iv ++ out)

/-- `AESDecrypt(key, key_length, data)` (syntax/utils/encryption.cpp:274-375). -/
def aesDecrypt (k : Crypto) (key : Bytes) (keyLength : Nat) (data : Bytes) : Res Bytes :=
  if data.length < 16 then .error .throw
  else if data.length = 16 then .ok []
  else if keyLength ≠ 16 ∧ keyLength ≠ 32 then .error .throw
  else if key.length < keyLength then .error .ub
  else do
    let _ ← safeConvert .i32 .u64 (data.length - 16 : Nat)
    let out ← evpDecrypt (k.blockDec (key.take keyLength)) (data.take 16) (data.drop 16)
    .ok (removePadding out)

/-! ### The standard security handler -/

/-- `f` applied `n` times. The loops of 50 digests, encryption.cpp:573-582, 725-745, 1156-1176. -/
def repeatFn {α : Type} (f : α → α) : Nat → α → α
  | 0, a => a
  | n + 1, a => repeatFn f n (f a)

/-- RC4 with the key changed by each of the counters in turn. The loops of encryption.cpp:600-606, 790-803, 1190-1205. -/
def rc4Rounds (k : Crypto) (key : Bytes) : List Nat → Bytes → Res Bytes
  | [], d => .ok d
  | i :: is, d => do
    let d ← computeRC4 k (xorKey key i) (xorKey key i).length d
    rc4Rounds k key is d

/-- `CalculateDecryptionKeyDigest` (syntax/utils/encryption.cpp:813-880). -/
def keyDigest (k : Crypto) (input documentId ownerData : Bytes) (permissions : Nat) : Bytes :=
  k.md5 (input ++ ownerData ++
    [UInt8.ofNat permissions, UInt8.ofNat (permissions >>> 8), UInt8.ofNat (permissions >>> 16),
     UInt8.ofNat (permissions >>> 24)] ++ documentId)

/-- One of the 50 rounds that replace the first `n` bytes of a digest by the digest of these bytes
(syntax/utils/encryption.cpp:733-757, 1154-1178). -/
def digestRound (k : Crypto) (n : Nat) (d : Bytes) : Bytes := (k.md5 (d.take n)).take n ++ d.drop n

/-- `min(SafeConvert<size_t>(key_length / 8), digest.size())` (syntax/utils/encryption.cpp:676-677, 722-723,
1151-1152); the division truncates towards zero. -/
def keyBytes (keyLength : Int) (digest : Bytes) : Res Nat := do
  let n ← safeConvert .u64 .i32 (keyLength.tdiv 8)
  .ok (min n.toNat digest.length)

/-- `CalculateDecryptionCompareDataV3` (syntax/utils/encryption.cpp:705-811).  The digest is changed in place, and the
caller sees the change; it is the second component.  `rnd` are the 16 arbitrary bytes at the end. -/
def compareDataV3 (k : Crypto) (digest documentId : Bytes) (keyLength : Int) (rnd : Bytes) : Res (Bytes × Bytes) := do
  let n ← keyBytes keyLength digest
  let d := repeatFn (digestRound k n) 50 digest
  let c ← computeRC4 k d d.length (k.md5 (passwordPad ++ documentId))
  let c ← rc4Rounds k d ((List.range 19).map (· + 1)) c
  .ok (c ++ rnd, d)

/-- The value compared with the `U` entry and the digest it leaves behind: the two branches of `CheckKey`
(syntax/utils/encryption.cpp:679-685) and of `GenerateUserEncryptionKey` (syntax/utils/encryption.cpp:650-655). -/
def compareData (k : Crypto) (digest documentId : Bytes) (revision keyLength : Int) (rnd : Bytes) :
    Res (Bytes × Bytes) :=
  if revision ≥ 3 then compareDataV3 k digest documentId keyLength rnd
  else do
    let c ← computeRC4 k digest 5 passwordPad
    .ok (c, digest)

/-- `GenerateOwnerEncryptionKey` (syntax/utils/encryption.cpp:533-619). -/
def ownerKey (k : Crypto) (ownerPassword userPassword : Bytes) (alg : Algorithm) (keyLength revision : Int) :
    Res Bytes :=
  if alg = .undefined ∨ alg = .none then .error .throw
  else do
    let padOwner ← padTruncate ownerPassword
    let b := k.md5 padOwner
    let c := if revision ≥ 3 then repeatFn k.md5 50 b else b
    let n : Int := if revision ≥ 3 then keyLength.tdiv 8 else 5
    let padUser ← padTruncate userPassword
    let n ← safeConvert .u64 .i32 n
    let f ← computeRC4 k c n.toNat padUser
    if revision ≥ 3 then rc4Rounds k c ((List.range 19).map (· + 1)) f else .ok f

/-- `GenerateUserEncryptionKey` (syntax/utils/encryption.cpp:621-661). -/
def userKey (k : Crypto) (documentId userPassword ownerData : Bytes) (alg : Algorithm) (keyLength : Int)
    (permissions : Nat) (revision : Int) (rnd : Bytes) : Res Bytes :=
  if alg = .undefined ∨ alg = .none then .error .throw
  else do
    let pad ← padTruncate userPassword
    let r ← compareData k (keyDigest k pad documentId ownerData permissions) documentId revision keyLength rnd
    .ok r.1

/-- `CheckKey` (syntax/utils/encryption.cpp:663-703): `none` is a rejected password.  `std::equal` reads as many
bytes of the `U` entry as it compares (a shorter entry: undefined behaviour; so is a short comparison value). -/
def checkKey (k : Crypto) (input documentId ownerData userData : Bytes) (permissions : Nat)
    (revision keyLength : Int) (rnd : Bytes) : Res (Option Bytes) := do
  let digest := keyDigest k input documentId ownerData permissions
  let n ← keyBytes keyLength digest
  let r ← compareData k digest documentId revision keyLength rnd
  let len := if revision ≥ 3 then 16 else 32
  if r.1.length < len ∨ userData.length < len then .error .ub
  else if r.1.take len = userData.take len then .ok (some (r.2.take n))
  else .ok none

/-- The entries of an encryption dictionary the library reads.  A crypt filter is given by its name and the name of
its method (`CFM`). Read in file.cpp:238-424 and 667-696. -/
structure EncDict where
  /-- the `Filter` entry is `Standard` -/
  standard : Bool
  version : Int
  revision : Int
  length : Option Int
  owner : Bytes
  user : Bytes
  permissions : Int
  cryptFilters : Option (List (Bytes × Option Bytes))
  streamFilter : Option Bytes
  stringFilter : Option Bytes
  /-- the number and generation of the dictionary, if it is an indirect object -/
  entry : Option (Nat × Nat)
  deriving Repr, DecidableEq

/-- `ComputeAuthenticationOwnerData` (syntax/utils/encryption.cpp:1097-1207). -/
def authOwner (k : Crypto) (padPassword : Bytes) (d : EncDict) : Res Bytes := do
  let digest := k.md5 padPassword
  if d.revision ≥ 3 then do
    let n ← safeConvert .u64 .i64 ((d.length.getD 40).tdiv 8)
    let n := min n.toNat digest.length
    let key := repeatFn (digestRound k n) 50 digest
    rc4Rounds k key (List.range 20).reverse d.owner
  else computeRC4 k digest 5 d.owner

/-- `File::SetEncryptionPassword` (syntax/files/file.cpp:325-424) for a document whose first identifier is
`documentId`; `none` is a rejected password, `some key` the key that is kept. -/
def setPassword (k : Crypto) (d : EncDict) (documentId password rnd : Bytes) : Res (Option Bytes) := do
  if documentId = [] then .error .throw
  else if !d.standard then .ok none
  else do
    let permissions := (IntTy.u32.cast d.permissions).toNat
    let revision ← safeConvert .i32 .i64 d.revision
    let keyLength ← safeConvert .i32 .i64 (d.length.getD 40)
    let pad ← padTruncate password
    let ownerData ← authOwner k pad d
    match ← checkKey k ownerData documentId d.owner d.user permissions revision keyLength rnd with
    | some key => .ok (some key)
    | none => checkKey k pad documentId d.owner d.user permissions revision keyLength rnd

/-- `DocumentEncryptionSettings::GetPermissionInteger` (semantics/utils/document_encryption_settings.cpp:16-51): the
value of the `P` entry for the requested permissions; the tests of the flags one after the other are a loop here. -/
def permissionInteger (flags : BitVec 32) : BitVec 32 :=
  [(4 : BitVec 32), 8, 16, 32, 256, 512, 1024, 2048].foldl
    (fun p f => if flags &&& f ≠ 0 then p &&& ~~~f else p) (-1)

/-- The settings of `Document::AddEncryption` (semantics/objects/document.cpp:828-959). -/
structure EncSettings where
  ownerPassword : Bytes
  userPassword : Bytes
  algorithm : Algorithm
  keyLength : Int
  permissions : Int

/-- `Document::AddEncryption` (semantics/objects/document.cpp:867-959): the dictionary it creates as object
`entry` and the key it keeps. -/
def addEncryption (k : Crypto) (s : EncSettings) (documentId : Bytes) (entry : Nat × Nat) (rnd : Bytes) :
    Res (EncDict × Bytes) :=
  if documentId = [] then .error .throw
  else do
    let version : Int := if s.keyLength > 40 then 2 else 1
    let revision : Int := if s.keyLength > 40 then 3 else 2
    let o ← ownerKey k s.ownerPassword s.userPassword s.algorithm s.keyLength revision
    let u ← userKey k documentId s.userPassword o s.algorithm s.keyLength (IntTy.u32.cast s.permissions).toNat
      revision rnd
    let d : EncDict :=
      { standard := true, version := version, revision := revision, length := some s.keyLength, owner := o, user := u,
        permissions := s.permissions, cryptFilters := none, streamFilter := none, stringFilter := none,
        entry := some entry }
    match ← setPassword k d documentId s.userPassword rnd with
    | some key => .ok (d, key)
    | none => .error .throw

/-! ### Files and objects -/

/-- The part of a file that decides how data are encrypted. file.h:139-140, file.cpp:426-470. -/
structure SecureFile where
  /-- the encryption dictionary; `none` for a document that is not encrypted -/
  dict : Option EncDict
  /-- the first document identifier -/
  documentId : Bytes
  /-- the key kept by the last accepted password; empty before -/
  key : Bytes
  /-- the entry of an object: missing, or found and compressed or not -/
  entry : Nat → Nat → Option Bool

/-- `File::IsEncrypted` (syntax/files/file.cpp:426-434). -/
def SecureFile.isEncrypted (F : SecureFile) : Bool := F.dict.isSome

/-- `File::GetEncryptionAlgorithmForFilter` (syntax/files/file.cpp:667-696). -/
def algorithmForFilter (d : EncDict) (name : Bytes) : Algorithm :=
  if d.version ≠ 4 ∧ d.version ≠ 5 then .none
  else
    match d.cryptFilters with
    | none => .none
    | some filters =>
      match filters.lookup name with
      | none => .none
      | some none => .none
      | some (some method) =>
        if method = b! "AESV2" ∨ method = b! "AESV3" then .aes
        else if method = b! "None" then .none
        else if method = b! "V2" then .rc4
        else .none

/-- The key: the one that is kept, or the one of the empty password (syntax/files/file.cpp:540-548, 625-632). -/
def fileKey (k : Crypto) (F : SecureFile) (d : EncDict) (rnd : Bytes) : Res Bytes :=
  if F.key ≠ [] then .ok F.key
  else do
    match ← setPassword k d F.documentId [] rnd with
    | some key => .ok key
    | none => .error .throw

/-- `File::DecryptData(data, number, generation, algorithm)` (syntax/files/file.cpp:484-567). -/
def decryptAlg (k : Crypto) (F : SecureFile) (alg : Algorithm) (number generation : Nat) (rnd data : Bytes) :
    Res Bytes :=
  match F.dict with
  | none => .ok data
  | some d =>
    if data = [] then .ok []
    else if d.entry = some (number, generation) then .ok data
    else
      match F.entry number generation with
      | none => .error .missing
      | some true => .ok data
      | some false => do
        let key ← fileKey k F d rnd
        if key.length = 32 ∧ alg = .aes then aesDecrypt k key 32 data
        else
          let objectKey := computeObjectKey k key number generation alg
          if alg = .aes then aesDecrypt k objectKey objectKey.length data
          else computeRC4 k objectKey objectKey.length data

/-- `File::EncryptData(data, number, generation, algorithm)` (syntax/files/file.cpp:617-665). -/
def encryptAlg (k : Crypto) (F : SecureFile) (alg : Algorithm) (number generation : Nat) (rnd iv data : Bytes) :
    Res Bytes :=
  match F.dict with
  | none => .ok data
  | some d => do
    let key ← fileKey k F d rnd
    if d.entry.isSome ∧ (number = 0 ∨ d.entry = some (number, generation)) then .ok data
    else if key.length = 32 ∧ alg = .aes then aesEncrypt k key 32 iv data
    else
      let objectKey := computeObjectKey k key number generation alg
      if alg = .aes then aesEncrypt k objectKey objectKey.length iv data
      else computeRC4 k objectKey objectKey.length data

/-- The algorithm for all streams, or for all strings, of a document: the filter named by `StmF` or `StrF` for
versions 4 and 5, otherwise RC4 (syntax/files/file.cpp:443-451, 461-469, 576-584, 594-602). -/
def defaultAlgorithm (d : EncDict) (filter : Option Bytes) : Res Algorithm :=
  if d.version = 4 ∨ d.version = 5 then
    match filter with
    | none => .error .missing
    | some f => .ok (algorithmForFilter d f)
  else .ok .rc4

/-- `File::DecryptStream` (syntax/files/file.cpp:436-452). -/
def decryptStream (k : Crypto) (F : SecureFile) (number generation : Nat) (rnd data : Bytes) : Res Bytes :=
  match F.dict with
  | none => .ok data
  | some d => do
    let alg ← defaultAlgorithm d d.streamFilter
    decryptAlg k F alg number generation rnd data

/-- `File::DecryptString` (syntax/files/file.cpp:454-470). -/
def decryptString (k : Crypto) (F : SecureFile) (number generation : Nat) (rnd data : Bytes) : Res Bytes :=
  match F.dict with
  | none => .ok data
  | some d => do
    let alg ← defaultAlgorithm d d.stringFilter
    decryptAlg k F alg number generation rnd data

/-- `File::EncryptStream` (syntax/files/file.cpp:569-585). -/
def encryptStream (k : Crypto) (F : SecureFile) (number generation : Nat) (rnd iv data : Bytes) : Res Bytes :=
  match F.dict with
  | none => .ok data
  | some d => do
    let alg ← defaultAlgorithm d d.streamFilter
    encryptAlg k F alg number generation rnd iv data

/-- `File::EncryptString` (syntax/files/file.cpp:587-603). -/
def encryptString (k : Crypto) (F : SecureFile) (number generation : Nat) (rnd iv data : Bytes) : Res Bytes :=
  match F.dict with
  | none => .ok data
  | some d => do
    let alg ← defaultAlgorithm d d.stringFilter
    encryptAlg k F alg number generation rnd iv data

/-- `File::DecryptData(data, number, generation, filter_name)` (syntax/files/file.cpp:472-482). -/
def decryptNamed (k : Crypto) (F : SecureFile) (name : Bytes) (number generation : Nat) (rnd data : Bytes) : Res Bytes :=
  match F.dict with
  | none => .ok data
  | some d => decryptAlg k F (algorithmForFilter d name) number generation rnd data

/-- `File::EncryptData(data, number, generation, filter_name)` (syntax/files/file.cpp:605-615). -/
def encryptNamed (k : Crypto) (F : SecureFile) (name : Bytes) (number generation : Nat) (rnd iv data : Bytes) :
    Res Bytes :=
  match F.dict with
  | none => .ok data
  | some d => encryptAlg k F (algorithmForFilter d name) number generation rnd iv data

/-- The value of a string read from a file: `LiteralStringObject::GetValue`, `HexadecimalStringObject::GetValue`
(syntax/objects/string_object.cpp:158-169, 416-426) after the text has been decoded to `stored`. -/
def stringRead (k : Crypto) (F : SecureFile) (exempt : Bool) (number generation : Nat) (rnd stored : Bytes) :
    Res Bytes :=
  if !exempt && F.isEncrypted then decryptString k F number generation rnd stored else .ok stored

/-- The bytes of a string that `ToPdfStreamInternal` encodes (syntax/objects/string_object.cpp:467-479, 503-515). -/
def stringWrite (k : Crypto) (F : SecureFile) (exempt : Bool) (number generation : Nat) (rnd iv value : Bytes) :
    Res Bytes :=
  if !exempt && F.isEncrypted then encryptString k F number generation rnd iv value else .ok value

/-- One filter of a stream with its parameters; `handler` is the `Name` entry of the parameters, which names the
crypt filter. stream_object.cpp:204-308. -/
structure FilterUse where
  filter : FilterName
  params : PredictorParams
  handler : Option Bytes

/-- The `Filter` entry of a stream dictionary. stream_object.cpp:204-430. -/
inductive StreamFilter where
  | absent
  | null
  | one (u : FilterUse)
  | many (us : List FilterUse)

/-- A stream object: its filters, the bytes as stored, the decrypted and decoded bodies if they are known, and its
flags (syntax/objects/stream_object.h:45-58). -/
structure StreamState where
  filter : StreamFilter
  raw : Bytes
  decrypted : Option Bytes
  decoded : Option Bytes
  dirty : Bool
  exempt : Bool

/-- `StreamObject::GetBodyDecrypted` (syntax/objects/stream_object.cpp:432-506).  Of `DecodeParms` only the name of
the handler matters; a missing one is an exception. -/
def bodyDecrypted (k : Crypto) (F : SecureFile) (s : StreamState) (number generation : Nat) (rnd : Bytes) : Res Bytes :=
  match s.decrypted with
  | some b => .ok b
  | none =>
    if s.exempt || !F.isEncrypted then .ok s.raw
    else
      match s.filter with
      | .absent | .null => decryptStream k F number generation rnd s.raw
      | .one u =>
        if u.filter = .crypt then
          match u.handler with
          | none => .error .missing
          | some h => decryptNamed k F h number generation rnd s.raw
        else decryptStream k F number generation rnd s.raw
      | .many us =>
        match us.find? (fun u => u.filter = .crypt) with
        | none => decryptStream k F number generation rnd s.raw
        | some u =>
          match u.handler with
          | none => .error .missing
          | some h => decryptNamed k F h number generation rnd s.raw

/-- `StreamObject::GetBody` (syntax/objects/stream_object.cpp:204-308). -/
def streamBody (m : Overflow) (c : Codecs) (k : Crypto) (F : SecureFile) (s : StreamState) (number generation : Nat)
    (rnd : Bytes) : Res Bytes :=
  match s.decoded with
  | some b => .ok b
  | none => do
    let b ← bodyDecrypted k F s number generation rnd
    match s.filter with
    | .absent | .null => .ok b
    | .one u => if u.filter = .crypt then .ok b else filterDecode m c u.filter u.params b
    | .many us => decodeChain m c (us.map fun u => (u.filter, u.params)) b

/-- `StreamObject::EncryptStream` (syntax/objects/stream_object.cpp:508-532). -/
def streamEncrypt (k : Crypto) (F : SecureFile) (exempt : Bool) (number generation : Nat) (rnd iv data : Bytes) :
    Res Bytes :=
  if exempt || !F.isEncrypted then .ok data else encryptStream k F number generation rnd iv data

/-- The loop over an array of filters in `GetBodyEncoded` (syntax/objects/stream_object.cpp:398-425). -/
def encodeMany (c : Codecs) (k : Crypto) (F : SecureFile) (exempt : Bool) (number generation : Nat) (rnd iv : Bytes) :
    List FilterUse → Bytes → Res Bytes
  | [], d => .ok d
  | u :: us, d => do
    let d ← if u.filter = .crypt then streamEncrypt k F exempt number generation rnd iv d else .ok d
    let d ← filterEncode c u.filter u.params d
    encodeMany c k F exempt number generation rnd iv us d

/-- `StreamObject::GetBodyEncoded` (syntax/objects/stream_object.cpp:310-430): the bytes written between `stream` and
`endstream`.  `encryptionDirty` tells that the encryption of the file was added or removed. -/
def bodyEncoded (m : Overflow) (c : Codecs) (k : Crypto) (F : SecureFile) (encryptionDirty : Bool) (s : StreamState)
    (number generation : Nat) (rnd iv : Bytes) : Res Bytes :=
  if !F.isEncrypted && !encryptionDirty && (!s.dirty || s.decoded.isNone) then .ok s.raw
  else if !s.dirty then do
    let b ← bodyDecrypted k F s number generation rnd
    streamEncrypt k F s.exempt number generation rnd iv b
  else do
    let b ← streamBody m c k F s number generation rnd
    match s.filter with
    | .absent | .null => streamEncrypt k F s.exempt number generation rnd iv b
    | .one u =>
      if u.filter = .crypt then
        match u.handler with
        | none => .error .missing
        | some h =>
          if s.exempt || !F.isEncrypted then .ok b else encryptNamed k F h number generation rnd iv b
      else do
        let e ← filterEncode c u.filter u.params b
        streamEncrypt k F s.exempt number generation rnd iv e
    | .many us => encodeMany c k F s.exempt number generation rnd iv us b

end VPdf
