import Verif.Lemmas.EncryptedData
import Verif.Props.Passwords
import Verif.Props.Filters

/-! # Encrypted strings and streams (C43, C44, C55) -/
namespace VPdf
open Spec (Lawful)

/-! ## C43 -/

/-- The number of bytes that AES encryption by the library appends to data of length `n`. -/
def surplus (n : Nat) : Nat := if n % 16 = 0 then 16 else n % 16

/-- C43, what is true: non-empty data come back followed by between 1 and 16 additional bytes.  Missing: the data should
come back unchanged. -/
theorem C43_own_partial {k : Crypto} (hk : Lawful k) {key iv data : Bytes} {n : Nat} (hn : n = 16 ∨ n = 32) (hkey : n ≤ key.length)
    (hi : iv.length = 16) (hd : data ≠ []) (hlen : data.length + 32 < 2147483647) :
    ∃ c, aesEncrypt k key n iv data = .ok c ∧
      aesDecrypt k key n c = .ok (data ++ List.replicate (surplus data.length) (UInt8.ofNat (surplus data.length))) := by
  refine ⟨_, aesEncrypt_ok hk iv hn hkey hi hd (by omega), ?_⟩
  have hb := addedBytes_bounds data.length
  rw [aesDecrypt_evp hk hn hkey hi (by rw [addPadding_length]; omega)]
  rfl

/-- C43 fails for all non-empty data, keys and initialisation vectors: what is decrypted is never what was encrypted. -/
theorem C43_counterexample {k : Crypto} (hk : Lawful k) {key iv data c : Bytes} {n : Nat} (hi : iv.length = 16) (hd : data ≠ [])
    (hlen : data.length + 32 < 2147483647) (h : aesEncrypt k key n iv data = .ok c) : aesDecrypt k key n c ≠ .ok data := by
  obtain ⟨_, h⟩ := aes_round hk hi hd hlen h
  rw [h]
  intro e
  have := congrArg List.length (Except.ok.inj e)
  have hb := addedBytes_bounds data.length
  rw [List.length_append, extraBytes, if_neg hd, List.length_replicate] at this
  omega

set_option maxRecDepth 100000 in
/-- A string of three bytes becomes one of six. -/
example : aesDecrypt sampleCrypto (b! "0123456789abcdef") 16
    ((aesEncrypt sampleCrypto (b! "0123456789abcdef") 16 (b! "fedcba9876543210") (b! "abc")).toOption.getD []) =
      .ok (b! "abc" ++ [3, 3, 3]) := by
  decide +kernel

/-- C43 for documents of other producers: data padded and chained as the standard says are decrypted correctly. -/
theorem C43_foreign {k : Crypto} (hk : Lawful k) {key iv data : Bytes} {n : Nat} {blocks : List Bytes} (hn : n = 16 ∨ n = 32)
    (hkey : n ≤ key.length) (hi : iv.length = 16) (hlen : data.length + 16 < 2147483647)
    (hb : ∀ b ∈ blocks, b.length = 16) (h : blocks.flatten = Spec.pkcs7 data) :
    aesDecrypt k key n (iv ++ Spec.chained (k.blockEnc (key.take n)) iv blocks) = .ok data := by
  rw [← evpEncrypt_chained _ hb h]
  exact aesDecrypt_evp hk hn hkey hi hlen

example : aesDecrypt sampleCrypto (b! "0123456789abcdef") 16
    (b! "fedcba9876543210" ++
      Spec.chained (sampleCrypto.blockEnc (b! "0123456789abcdef")) (b! "fedcba9876543210")
        [b! "abc" ++ List.replicate 13 13]) = .ok (b! "abc") :=
  C43_foreign sampleCrypto_lawful (.inl rfl) (by decide) (by decide) (by decide) (by decide) (by decide +kernel)

/-- What the library writes is what the standard makes of the data with the surplus bytes, so other readers see them too. -/
theorem C43_written_partial {k : Crypto} (hk : Lawful k) {key iv data : Bytes} {n : Nat} {blocks : List Bytes} (hn : n = 16 ∨ n = 32)
    (hkey : n ≤ key.length) (hi : iv.length = 16) (hd : data ≠ []) (hlen : data.length + 32 < 2147483647)
    (hb : ∀ b ∈ blocks, b.length = 16)
    (h : blocks.flatten =
      Spec.pkcs7 (data ++ List.replicate (surplus data.length) (UInt8.ofNat (surplus data.length)))) :
    aesEncrypt k key n iv data = .ok (iv ++ Spec.chained (k.blockEnc (key.take n)) iv blocks) := by
  rw [← evpEncrypt_chained _ hb h, aesEncrypt_ok hk iv hn hkey hi hd (by omega)]
  rfl

/-! ## C44 -/

/-- `F` is the document when it is written and `F'` when it is read again: they have the same encryption dictionary
and the same key was kept, or follows from the empty password. -/
structure Reopened (k : Crypto) (F F' : SecureFile) (d : EncDict) (key : Bytes) : Prop where
  written : F.dict = some d
  read : F'.dict = some d
  writtenKey : ∀ r, fileKey k F d r = .ok key
  readKey : ∀ r, fileKey k F' d r = .ok key

/-- C44: a string or stream encrypted with RC4 when a document is saved is unchanged when it is read again.  (Version 1
and 2 documents always use RC4.) -/
theorem C44_round_trip {k : Crypto} (hk : Lawful k) {F F' : SecureFile} {d : EncDict} {key : Bytes} (hF : Reopened k F F' d key)
    (hv : d.version ≠ 4 ∧ d.version ≠ 5) {number generation : Nat} (hn : number ≠ 0)
    (hent : F'.entry number generation = some false) {r iv data : Bytes} (hi : iv.length = 16) (hlen : data.length + 32 < 2147483647) :
    (∃ c, encryptString k F number generation r iv data = .ok c ∧ ∀ r', decryptString k F' number generation r' c = .ok data) ∧
    (∃ c, encryptStream k F number generation r iv data = .ok c ∧ ∀ r', decryptStream k F' number generation r' c = .ok data) := by
  have ha : ∀ f, defaultAlgorithm d f = .ok .rc4 := by
    intro f; unfold defaultAlgorithm; rw [if_neg (by tauto)]
  obtain ⟨c, hc⟩ := encryptAlg_ok (alg := .rc4) (n := number) (g := generation) hk hF.written (hF.writtenKey r) hi hlen (by simp)
  have hr : ∀ r', decryptAlg k F' .rc4 number generation r' c = .ok data := by
    intro r'
    have := encryptAlg_decryptAlg hk hF.written hF.read (hF.writtenKey r) (hF.readKey r') (.inl hn) hent hi hlen hc
    simpa using this
  refine ⟨⟨c, ?_, ?_⟩, ⟨c, ?_, ?_⟩⟩
  · unfold encryptString; rw [hF.written]; dsimp only; rw [ha, ok_bind, hc]
  · intro r'; unfold decryptString; rw [hF.read]; dsimp only; rw [ha, ok_bind, hr r']
  · unfold encryptStream; rw [hF.written]; dsimp only; rw [ha, ok_bind, hc]
  · intro r'; unfold decryptStream; rw [hF.read]; dsimp only; rw [ha, ok_bind, hr r']

/-- A document of version 2 with a key. -/
def sampleSecure (filters : Option (List (Bytes × Option Bytes))) (version : Int) : SecureFile where
  dict := some
    { standard := true, version := version, revision := 3, length := some 128, owner := [], user := [], permissions := -4,
      cryptFilters := filters, streamFilter := some (b! "StdCF"), stringFilter := some (b! "StdCF"), entry := some (9, 0) }
  documentId := b! "id"
  key := b! "0123456789abcdef"
  entry := fun n _ => if n < 10 then some false else none

theorem sampleSecure_reopened (filters version) :
    Reopened sampleCrypto (sampleSecure filters version) (sampleSecure filters version)
      ((sampleSecure filters version).dict.get rfl) (b! "0123456789abcdef") :=
  ⟨rfl, rfl, fun _ => rfl, fun _ => rfl⟩

set_option maxRecDepth 100000 in
example : encryptString sampleCrypto (sampleSecure none 2) 3 0 [] (b! "fedcba9876543210") (b! "secret") ≠ .ok (b! "secret") := by
  decide +kernel

example : ∃ c, encryptString sampleCrypto (sampleSecure none 2) 3 0 [] (b! "fedcba9876543210") (b! "secret") = .ok c ∧
    ∀ r', decryptString sampleCrypto (sampleSecure none 2) 3 0 r' c = .ok (b! "secret") :=
  (C44_round_trip sampleCrypto_lawful (sampleSecure_reopened none 2) (by decide) (by decide) rfl (by decide) (by decide)).1

/-! ## C55 -/

/-- The bytes that appear behind data in a document encrypted with AES (see C43). -/
def appended (alg : Algorithm) (data : Bytes) : Bytes :=
  if alg = .aes ∧ data ≠ [] then List.replicate (surplus data.length) (UInt8.ofNat (surplus data.length)) else []

theorem appended_eq (alg : Algorithm) (data : Bytes) : appended alg data = if alg = .aes then extraBytes data else [] := by
  unfold appended extraBytes
  by_cases h : alg = .aes <;> by_cases h' : data = [] <;> simp [h, h', surplus, addedBytes]

/-- C55 for strings: whatever the configuration, a string written is read again with the same algorithm and key, and so
is unchanged, up to the surplus bytes of AES; strings exempt from encryption are left alone both ways, and so are the
strings of the encryption dictionary. -/
theorem C55_strings_partial {k : Crypto} (hk : Lawful k) {F F' : SecureFile} {d : EncDict} {key : Bytes} (hF : Reopened k F F' d key)
    {number generation : Nat} (hn : number ≠ 0) (hent : F'.entry number generation = some false) {exempt : Bool}
    {r iv value stored : Bytes} (r' : Bytes) (hi : iv.length = 16) (hlen : value.length + 32 < 2147483647)
    (h : stringWrite k F exempt number generation r iv value = .ok stored) :
    (exempt = true ∨ d.entry = some (number, generation) →
      stored = value ∧ stringRead k F' exempt number generation r' stored = .ok value) ∧
    (exempt = false → d.entry ≠ some (number, generation) → ∃ alg, defaultAlgorithm d d.stringFilter = .ok alg ∧
      stringRead k F' exempt number generation r' stored = .ok (value ++ appended alg value)) := by
  have e1 : F.isEncrypted = true := by simp [SecureFile.isEncrypted, hF.written]
  have e2 : F'.isEncrypted = true := by simp [SecureFile.isEncrypted, hF.read]
  unfold stringWrite at h
  unfold stringRead
  rw [e1] at h
  rw [e2]
  cases exempt with
  | true =>
    have h := Except.ok.inj h
    exact ⟨fun _ => ⟨h.symm, by rw [← h]; rfl⟩, by simp⟩
  | false =>
    rw [if_pos (by rfl)] at h
    rw [if_pos (by rfl)]
    unfold encryptString at h
    unfold decryptString
    rw [hF.written] at h
    rw [hF.read]
    dsimp only at h ⊢
    obtain ⟨alg, ha, h⟩ := except_bind_ok h
    have hr := encryptAlg_decryptAlg hk hF.written hF.read (hF.writtenKey r) (hF.readKey r') (.inl hn) hent hi hlen h
    rw [ha, ok_bind]
    refine ⟨fun he => ?_, fun _ he => ⟨alg, rfl, ?_⟩⟩
    · have he : d.entry = some (number, generation) := by simpa using he
      refine ⟨?_, by rw [hr]; simp [he]⟩
      unfold encryptAlg at h
      rw [hF.written] at h
      dsimp only at h
      rw [hF.writtenKey, ok_bind, if_pos ⟨by rw [he]; rfl, .inr he⟩] at h
      exact (Except.ok.inj h).symm
    · rw [hr, appended_eq]
      simp [he]

/-- The stream of a document that is read again: its bytes as stored, nothing decoded. -/
def reloaded (s : StreamState) (stored : Bytes) : StreamState :=
  { filter := s.filter, raw := stored, decrypted := none, decoded := none, dirty := false, exempt := s.exempt }

/-- A stream that names its own crypt filter. -/
def usesCrypt : StreamFilter → Bool
  | .one u => u.filter = .crypt
  | .many us => us.any (fun u => u.filter = .crypt)
  | _ => false

/-- The algorithm for the streams of a document, and nothing is appended to an exempt stream. -/
def streamAppended (d : EncDict) (exempt : Bool) (number generation : Nat) (data tail : Bytes) : Prop :=
  if exempt = true ∨ d.entry = some (number, generation) then tail = []
  else ∃ alg, defaultAlgorithm d d.streamFilter = .ok alg ∧ tail = appended alg data

theorem streamEncrypt_round {k : Crypto} (hk : Lawful k) {F F' : SecureFile} {d : EncDict} {key : Bytes} (hF : Reopened k F F' d key)
    {number generation : Nat} (hn : number ≠ 0) (hent : F'.entry number generation = some false) {s : StreamState}
    {r iv data stored : Bytes} (r' : Bytes) (hi : iv.length = 16) (hlen : data.length + 32 < 2147483647)
    (hc : usesCrypt s.filter = false)
    (h : streamEncrypt k F s.exempt number generation r iv data = .ok stored) :
    ∃ tail, streamAppended d s.exempt number generation data tail ∧
      bodyDecrypted k F' (reloaded s stored) number generation r' = .ok (data ++ tail) := by
  have e1 : F.isEncrypted = true := by simp [SecureFile.isEncrypted, hF.written]
  have e2 : F'.isEncrypted = true := by simp [SecureFile.isEncrypted, hF.read]
  unfold streamEncrypt at h
  unfold streamAppended
  rw [e1] at h
  cases hx : s.exempt with
  | true =>
    rw [hx] at h
    refine ⟨[], by simp, ?_⟩
    rw [← Except.ok.inj h, List.append_nil]
    simp [bodyDecrypted, reloaded, hx]
  | false =>
    rw [hx, if_neg (by simp)] at h
    unfold encryptStream at h
    rw [hF.written] at h
    dsimp only at h
    obtain ⟨alg, ha, h⟩ := except_bind_ok h
    have hr := encryptAlg_decryptAlg hk hF.written hF.read (hF.writtenKey r) (hF.readKey r') (.inl hn) hent hi hlen h
    have hb : bodyDecrypted k F' (reloaded s stored) number generation r' = decryptStream k F' number generation r' stored := by
      unfold bodyDecrypted reloaded
      dsimp only
      rw [hx, e2, if_neg (by simp)]
      cases hf : s.filter with
      | absent => rfl
      | null => rfl
      | one u =>
        rw [hf] at hc
        simp only [usesCrypt, decide_eq_false_iff_not] at hc
        dsimp only
        rw [if_neg hc]
      | many us =>
        rw [hf] at hc
        simp only [usesCrypt] at hc
        dsimp only
        rw [List.find?_eq_none.mpr (by simpa using hc)]
    have hd : decryptStream k F' number generation r' stored = decryptAlg k F' alg number generation r' stored := by
      unfold decryptStream; rw [hF.read]; dsimp only; rw [ha, ok_bind]
    rw [hb, hd, hr]
    refine ⟨_, ?_, rfl⟩
    by_cases he : d.entry = some (number, generation)
    · simp [he]
    · simp only [he, or_false, Bool.false_eq_true, if_false]
      exact ⟨alg, ha, by rw [appended_eq]; simp [he]⟩

/-- C55 for streams that were not changed and name no crypt filter of their own: the decrypted body is the same after
writing and reading, up to the surplus bytes of AES. -/
theorem C55_unchanged_streams_partial {k : Crypto} (hk : Lawful k) {F F' : SecureFile} {d : EncDict} {key : Bytes}
    (hF : Reopened k F F' d key) {number generation : Nat} (hn : number ≠ 0) (hent : F'.entry number generation = some false)
    (m : Overflow) (c : Codecs) (encryptionDirty : Bool) {s : StreamState} {r iv body stored : Bytes} (r' : Bytes) (hi : iv.length = 16)
    (hlen : body.length + 32 < 2147483647) (hc : usesCrypt s.filter = false) (hs : s.dirty = false)
    (hb : bodyDecrypted k F s number generation r = .ok body)
    (h : bodyEncoded m c k F encryptionDirty s number generation r iv = .ok stored) :
    ∃ tail, streamAppended d s.exempt number generation body tail ∧
      bodyDecrypted k F' (reloaded s stored) number generation r' = .ok (body ++ tail) := by
  have e1 : F.isEncrypted = true := by simp [SecureFile.isEncrypted, hF.written]
  unfold bodyEncoded at h
  rw [e1, hs, if_neg (by simp), if_pos (by rfl), hb, ok_bind] at h
  exact streamEncrypt_round hk hF hn hent r' hi hlen hc h

/-- What a changed stream with at most one filter encodes to before encryption. -/
def encodedWith (c : Codecs) : StreamFilter → Bytes → Res Bytes
  | .one u, b => if u.filter = .crypt then .ok b else filterEncode c u.filter u.params b
  | _, b => .ok b

/-- C55 for changed streams with at most one filter, not a crypt filter.  Missing: arrays of filters, see the
counterexample. -/
theorem C55_changed_streams_partial {k : Crypto} (hk : Lawful k) {F F' : SecureFile} {d : EncDict} {key : Bytes}
    (hF : Reopened k F F' d key) {number generation : Nat} (hn : number ≠ 0) (hent : F'.entry number generation = some false)
    (m : Overflow) (c : Codecs) (encryptionDirty : Bool) {s : StreamState} {r iv body encoded stored : Bytes} (r' : Bytes)
    (hi : iv.length = 16) (hlen : encoded.length + 32 < 2147483647) (hc : usesCrypt s.filter = false)
    (hm : ∀ us, s.filter ≠ .many us) (hs : s.dirty = true) (hb : s.decoded = some body) (he : encodedWith c s.filter body = .ok encoded)
    (h : bodyEncoded m c k F encryptionDirty s number generation r iv = .ok stored) :
    ∃ tail, streamAppended d s.exempt number generation encoded tail ∧
      bodyDecrypted k F' (reloaded s stored) number generation r' = .ok (encoded ++ tail) := by
  have e1 : F.isEncrypted = true := by simp [SecureFile.isEncrypted, hF.written]
  have hb' : streamBody m c k F s number generation r = .ok body := by unfold streamBody; rw [hb]
  unfold bodyEncoded at h
  rw [e1, hs, if_neg (by simp), if_neg (by simp), hb', ok_bind] at h
  cases hf : s.filter with
  | absent =>
    rw [hf] at h he
    rw [← Except.ok.inj he] at hlen ⊢
    exact streamEncrypt_round hk hF hn hent r' hi hlen hc h
  | null =>
    rw [hf] at h he
    rw [← Except.ok.inj he] at hlen ⊢
    exact streamEncrypt_round hk hF hn hent r' hi hlen hc h
  | one u =>
    have hu : u.filter ≠ .crypt := by rw [hf] at hc; simpa [usesCrypt] using hc
    rw [hf] at h he
    simp only [encodedWith] at he
    dsimp only at h
    rw [if_neg hu] at h he
    rw [he, ok_bind] at h
    exact streamEncrypt_round hk hF hn hent r' hi hlen hc h
  | many us => exact absurd hf (hm us)

/-- C55 for changed streams with one filter, a crypt filter: both ways use the algorithm it names. -/
theorem C55_changed_crypt_partial {k : Crypto} (hk : Lawful k) {F F' : SecureFile} {d : EncDict} {key : Bytes}
    (hF : Reopened k F F' d key) {number generation : Nat} (hn : number ≠ 0) (hent : F'.entry number generation = some false)
    (m : Overflow) (c : Codecs) (encryptionDirty : Bool) {s : StreamState} {u : FilterUse} {name r iv body stored : Bytes} (r' : Bytes)
    (hi : iv.length = 16) (hlen : body.length + 32 < 2147483647) (hf : s.filter = .one u) (hu : u.filter = .crypt)
    (hname : u.handler = some name) (hx : s.exempt = false) (he : d.entry ≠ some (number, generation))
    (hs : s.dirty = true) (hb : s.decoded = some body)
    (h : bodyEncoded m c k F encryptionDirty s number generation r iv = .ok stored) :
    bodyDecrypted k F' (reloaded s stored) number generation r' = .ok (body ++ appended (algorithmForFilter d name) body) := by
  have e1 : F.isEncrypted = true := by simp [SecureFile.isEncrypted, hF.written]
  have e2 : F'.isEncrypted = true := by simp [SecureFile.isEncrypted, hF.read]
  have hb' : streamBody m c k F s number generation r = .ok body := by unfold streamBody; rw [hb]
  unfold bodyEncoded at h
  rw [e1, hs, if_neg (by simp), if_neg (by simp), hb', ok_bind, hf] at h
  dsimp only at h
  rw [if_pos hu, hname] at h
  dsimp only at h
  rw [hx, if_neg (by simp)] at h
  unfold encryptNamed at h
  rw [hF.written] at h
  dsimp only at h
  have hr := encryptAlg_decryptAlg hk hF.written hF.read (hF.writtenKey r) (hF.readKey r') (.inl hn) hent hi hlen h
  unfold bodyDecrypted reloaded
  dsimp only
  rw [hx, e2, if_neg (by simp), hf]
  dsimp only
  rw [if_pos hu, hname]
  dsimp only
  unfold decryptNamed
  rw [hF.read]
  dsimp only
  rw [hr, appended_eq]
  simp [he]

theorem encodeMany_plain (c : Codecs) (k : Crypto) (F : SecureFile) (exempt : Bool) (n g : Nat) (r iv : Bytes) :
    ∀ (us : List FilterUse) (d : Bytes), us.any (fun u => u.filter = .crypt) = false →
      encodeMany c k F exempt n g r iv us d = encodeMany c k { F with dict := none } true 0 0 [] [] us d
  | [], _, _ => rfl
  | u :: us, d, h => by
    simp only [List.any_cons, Bool.or_eq_false_iff, decide_eq_false_iff_not] at h
    rw [encodeMany, encodeMany, if_neg h.1, if_neg h.1, ok_bind, ok_bind]
    dsimp only
    cases filterEncode c u.filter u.params d with
    | error e => rfl
    | ok x => rw [ok_bind, ok_bind, encodeMany_plain c k F exempt n g r iv us x (by simpa using h.2)]

/-- C55 fails for changed streams with an array of filters: they are written without encryption, whatever the settings
and keys of the document. -/
theorem C55_filter_array_counterexample (m : Overflow) (c : Codecs) (k : Crypto) (F : SecureFile) (encryptionDirty : Bool)
    (s : StreamState) (us : List FilterUse) (body : Bytes) (number generation : Nat) (r iv : Bytes) (hF : F.isEncrypted = true)
    (hf : s.filter = .many us) (hc : usesCrypt s.filter = false) (hs : s.dirty = true) (hb : s.decoded = some body) :
    bodyEncoded m c k F encryptionDirty s number generation r iv =
      bodyEncoded m c k { F with dict := none } encryptionDirty s number generation r iv := by
  have hb' : ∀ F, streamBody m c k F s number generation r = .ok body := by intro F; unfold streamBody; rw [hb]
  rw [hf] at hc
  simp only [usesCrypt] at hc
  unfold bodyEncoded
  rw [hF, hs, if_neg (by simp), if_neg (by simp), if_neg (by simp [hb]), if_neg (by simp), hb', ok_bind, hb', ok_bind, hf]
  dsimp only
  exact (encodeMany_plain c k F _ _ _ _ _ us body hc).trans (encodeMany_plain c k { F with dict := none } _ _ _ _ _ us body hc).symm

/-- A changed stream with an array of one filter. -/
def sampleChanged (filter : StreamFilter) : StreamState :=
  { filter := filter, raw := [], decrypted := none, decoded := some (b! "page contents"), dirty := true, exempt := false }

set_option maxRecDepth 100000 in
/-- So the text can be read in the file of an encrypted document, and the library cannot read it again. -/
example : bodyEncoded .wrap toyCodecs sampleCrypto (sampleSecure none 2) false (sampleChanged (.many [⟨.flate, {}, none⟩])) 3 0 [] [] =
      .ok (toyCodecs.deflate (b! "page contents")) ∧
    streamBody .wrap toyCodecs sampleCrypto (sampleSecure none 2)
      (reloaded (sampleChanged (.many [⟨.flate, {}, none⟩])) (toyCodecs.deflate (b! "page contents"))) 3 0 [] ≠
      .ok (b! "page contents") := by
  decide +kernel

set_option maxRecDepth 100000 in
/-- With one filter that is not in an array the same stream survives. -/
example : ((bodyEncoded .wrap toyCodecs sampleCrypto (sampleSecure none 2) false (sampleChanged (.one ⟨.flate, {}, none⟩)) 3 0 [] []).bind
    fun stored => streamBody .wrap toyCodecs sampleCrypto (sampleSecure none 2)
      (reloaded (sampleChanged (.one ⟨.flate, {}, none⟩)) stored) 3 0 []) = .ok (b! "page contents") := by
  decide +kernel

/-- Streams are encrypted with RC4, unless they name the filter `Other`, which is AES. -/
def sampleMixed : SecureFile := sampleSecure (some [(b! "StdCF", some (b! "V2")), (b! "Other", some (b! "AESV2"))]) 4

/-- A stream that names the filter `Other`, as another producer wrote it. -/
def sampleCryptStream : StreamState :=
  { filter := .one ⟨.crypt, {}, some (b! "Other")⟩
    raw := b! "fedcba9876543210" ++
      Spec.chained (sampleCrypto.blockEnc (computeObjectKey sampleCrypto (b! "0123456789abcdef") 3 0 .aes)) (b! "fedcba9876543210")
        [b! "page contents" ++ List.replicate 3 3]
    decrypted := none, decoded := none, dirty := false, exempt := false }

set_option maxRecDepth 100000 in
/-- C55 fails for unchanged streams with a crypt filter: they are decrypted with the algorithm it names but encrypted
again with the one for all streams, so they cannot be read again. -/
theorem C55_crypt_counterexample :
    bodyDecrypted sampleCrypto sampleMixed sampleCryptStream 3 0 [] = .ok (b! "page contents") ∧
    ((bodyEncoded .wrap toyCodecs sampleCrypto sampleMixed false sampleCryptStream 3 0 [] (b! "fedcba9876543210")).bind
      fun stored => bodyDecrypted sampleCrypto sampleMixed (reloaded sampleCryptStream stored) 3 0 []) ≠
      .ok (b! "page contents") := by
  decide +kernel

set_option maxRecDepth 100000 in
/-- The mixed document meets the hypotheses on streams and on named filters. -/
example : (∃ x, encryptNamed sampleCrypto sampleMixed (b! "Other") 3 0 [] (b! "fedcba9876543210") (b! "abc") = .ok x) ∧
    algorithmForFilter (sampleMixed.dict.get rfl) (b! "Other") = .aes ∧
    algorithmForFilter (sampleMixed.dict.get rfl) (b! "StdCF") = .rc4 :=
  ⟨encryptAlg_ok sampleCrypto_lawful rfl ((sampleSecure_reopened _ 4).writtenKey []) (by decide) (by decide) (by decide),
    by decide +kernel, by decide +kernel⟩

end VPdf
