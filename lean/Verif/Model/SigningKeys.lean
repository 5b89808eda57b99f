import Verif.Model.Recipients
/-
  Keys that sign: `DocumentSigner::OnBeforeOutputFlush` (src/vanillapdf/semantics/utils/document_signer.cpp:81-114) with the
  keys of utils/pkcs12_key.cpp and implementation/utils/c_signing_key.cpp.

  OpenSSL is a parameter.  The bytes of the ranges are given; reading them from the output is in Model/Signing.lean.
-/
namespace VPdf

/-- `ISigningKey`, signing_key_interface.h: functions that may throw and that change the state of the key.  A digest is
its number in message_digest_algorithm.h. -/
structure SigningKey (σ : Type) where
  init : Nat → σ → Res Unit × σ
  update : Bytes → σ → Res Unit × σ
  final : σ → Res Bytes × σ
  cleanup : σ → Res Unit × σ

/-- How signing ends: with a signature that fits into the file, with an exception (or undefined behaviour), or with
`std::terminate`, because the cleanup has thrown in the destructor of the guard (util.h:30-34). document_signer.cpp:81-115. -/
inductive SignEnd where
  | signature (b : Bytes)
  | failed (f : Fault)
  | terminated
  deriving DecidableEq

/-- The loop over the ranges, document_signer.cpp:85-96. -/
def signUpdates {σ : Type} (k : SigningKey σ) : List Bytes → σ → Res Unit × σ
  | [], s => (.ok (), s)
  | b :: bs, s =>
    match k.update b s with
    | (.ok _, s') => signUpdates k bs s'
    | (.error e, s') => (.error e, s')

/-- What stands behind the guard, document_signer.cpp:85-114; `room` bytes are kept in the file for the signature, which
is written in hexadecimal digits between angle brackets. -/
def signBody {σ : Type} (k : SigningKey σ) (ranges : List Bytes) (room : Nat) (s : σ) : Res Bytes × σ :=
  match signUpdates k ranges s with
  | (.error e, s1) => (.error e, s1)
  | (.ok _, s1) =>
    match k.final s1 with
    | (.error e, s2) => (.error e, s2)
    | (.ok b, s2) => (if 2 * b.length + 2 > room then .error .throw else .ok b, s2)

/-- The end of the scope, document_signer.cpp:83, util.h:30-34: the destructor runs the cleanup, and a destructor must
not throw. -/
def signGuard {σ : Type} (k : SigningKey σ) (r : Res Bytes × σ) : SignEnd × σ :=
  match k.cleanup r.2 with
  | (.error _, s) => (.terminated, s)
  | (.ok _, s) =>
    match r.1 with
    | .ok b => (.signature b, s)
    | .error e => (.failed e, s)

/-- Signing with a key, document_signer.cpp:81-114. -/
def signWithKey {σ : Type} (k : SigningKey σ) (digest : Nat) (ranges : List Bytes) (room : Nat) (s : σ) : SignEnd × σ :=
  match k.init digest s with
  | (.error e, s1) => (.failed e, s1)
  | (.ok _, s1) => signGuard k (signBody k ranges room s1)

/-! ### Keys of the program -/

/-- A call of a callback of the program, c_signing_key.cpp:45-131. -/
inductive SignEvent where
  | init (digest : Nat)
  | update (b : Bytes)
  | final
  | cleanup
  deriving DecidableEq

/-- The callbacks, c_signing_key.cpp:134-139: whether they succeed, which may depend on all calls before.  The callback of
the final call may deliver a buffer. -/
structure SignCallbacks where
  init : List SignEvent → Nat → Bool
  update : List SignEvent → Bytes → Bool
  final : List SignEvent → Bool × Option Bytes
  cleanup : List SignEvent → Bool

/-- The answer of a callback, c_signing_key.cpp:79-84: everything but success is an exception. -/
def callbackAnswer (ok : Bool) : Res Unit := if ok then .ok () else .error .throw

/-- `CustomSigningKey`, c_signing_key.cpp:45-131; the state is the list of calls so far. -/
def customKey (c : SignCallbacks) : SigningKey (List SignEvent) where
  init d h := if 12 < d then (.error .throw, h) else (callbackAnswer (c.init h d), h ++ [.init d])
  update b h := (callbackAnswer (c.update h b), h ++ [.update b])
  final h :=
    (match c.final h with
      | (true, some b) => .ok b
      | (true, none) => .error .throw
      | (false, _) => .error .throw, h ++ [.final])
  cleanup h := (callbackAnswer (c.cleanup h), h ++ [.cleanup])

/-! ### Keys from PKCS#12 -/

/-- What OpenSSL does for the key in pkcs12_key.cpp:182-419, and the certificate. -/
structure Pkcs12Lib where
  issuer : Bytes
  serial : Bytes
  size : Nat
  rsa : Bytes → Option Bytes
  /-- `MiscUtils::GetAlgorithm` knows the digest, misc_utils.cpp:179-250 -/
  known : Nat → Bool
  /-- all calls of `SignInitialize` succeed, pkcs12_key.cpp:263-341 -/
  accepts : Nat → Bool
  /-- `PKCS7_dataFinal` and `i2d_PKCS7`, pkcs12_key.cpp:394-411 -/
  sign : Nat → Bytes → Option Bytes

/-- The members of `PKCS12KeyImpl`, pkcs12_key.cpp:42-48: `loaded` stands for `key` and `cert`, which are set and freed
together; `p7` keeps its digest, `bio` the data so far. -/
structure Pkcs12State where
  loaded : Bool
  p7 : Option Nat
  bio : Option Bytes
  deriving DecidableEq

/-- A key behind `Load`, pkcs12_key.cpp:139-180. -/
def Pkcs12State.fresh : Pkcs12State := ⟨true, none, none⟩

/-- `PKCS12KeyImpl`, pkcs12_key.cpp:261-456.  `PKCS7_add_signature` reads the certificate; there is none after a cleanup.
`BIO_write` and `PKCS7_dataFinal` fail for null. -/
def pkcs12Signing (l : Pkcs12Lib) : SigningKey Pkcs12State where
  init d s :=
    if !l.known d then (.error .throw, { s with p7 := some d })
    else if !s.loaded then (.error .ub, s)
    else if !l.accepts d then (.error .throw, { s with p7 := some d })
    else (.ok (), { s with p7 := some d, bio := some [] })
  update b s :=
    match s.bio with
    | none => (if b = [] then .ok () else .error .throw, s)
    | some x => (.ok (), { s with bio := some (x ++ b) })
  final s :=
    (match s.p7, s.bio with
      | some d, some x => (l.sign d x).elim (.error .throw) .ok
      | _, _ => .error .throw, s)
  cleanup _ := (.ok (), ⟨false, none, none⟩)

/-- `ContainsPrivateKey` and `Decrypt` in a state of the key, pkcs12_key.cpp:182-259.  Without the certificate a null pointer
is read, without the key there is no context. -/
def pkcs12At (l : Pkcs12Lib) (s : Pkcs12State) : PrivateKey where
  contains i n := if s.loaded then (pkcs12 l.issuer l.serial l.size l.rsa).contains i n else .error .ub
  decrypt c := if s.loaded then (pkcs12 l.issuer l.serial l.size l.rsa).decrypt c else .error .throw

/-- What a program can do with the key: sign (c_document.cpp: `Document_Sign`), or unlock a file
(c_file.cpp: `File_SetEncryptionKey`). -/
inductive KeyUse where
  | sign (digest : Nat) (ranges : List Bytes) (room : Nat)
  | unlock (p : Pkcs7) (s : PStore) (d : Option Dict) (old : Option Bytes)

/-- The answer of a use. document_signer.cpp:81-114, file.cpp:238-317. -/
inductive KeyAnswer where
  | signed (e : SignEnd)
  | unlocked (r : Res (Bool × Option Bytes))

/-- One use of the key, document_signer.cpp:81-114, file.cpp:238-317. -/
def useKey (l : Pkcs12Lib) (s : Pkcs12State) : KeyUse → KeyAnswer × Pkcs12State
  | .sign d ranges room =>
    let r := signWithKey (pkcs12Signing l) d ranges room s
    (.signed r.1, r.2)
  | .unlock p st d old => (.unlocked (setKey p (pkcs12At l s) st d old), s)

/-- The state of the key after a history, document_signer.cpp:81-114, file.cpp:238-317. -/
def useKeys (l : Pkcs12Lib) : Pkcs12State → List KeyUse → Pkcs12State
  | s, [] => s
  | s, u :: us => useKeys l (useKey l s u).2 us

/-! ### Passwords -/

/-- The length of a string in C: bytes up to a zero, here inside a block of memory.  `PKCS12_parse` at pkcs12_key.cpp:155 does it
with the block of the password. -/
def zeroTerminated : Bytes → Res Bytes
  | [] => .error .ub
  | b :: bs => if b = 0 then .ok [] else do
    let r ← zeroTerminated bs
    .ok (b :: r)

/-- `PKCS12Key_CreateFromFile` and `Load`, c_pkcs12_key.cpp:12-28, pkcs12_key.cpp:139-158, with a password of the program (a string
without zeros, or none).  The `Buffer` has the characters without the zero behind them; an empty buffer is a null pointer. -/
def loadKey (parse : Option Bytes → Bool) (password : Option Bytes) : Res Pkcs12State := do
  let buffer := password.getD []
  let text ← (if buffer = [] then .ok none else do
    let t ← zeroTerminated buffer
    .ok (some t))
  if parse text then .ok .fresh else .error .throw

end VPdf
