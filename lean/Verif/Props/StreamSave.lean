import Verif.Lemmas.StreamSave

/-! # The data and the length of saved streams (C85) -/
namespace VPdf
open Spec (Lawful LengthIs CachesAgree Holdable)

/-- **C85** for streams the user changed, in documents of any kind: the entry Length of the saved dictionary is the number
of bytes saved. -/
theorem C85_changed {m : Overflow} {c : Codecs} {k : Crypto} (hk : Lawful k) {F : SecureFile} {encryptionDirty : Bool}
    {resolve : Nat → Nat → Res Int} {d d' : Dict} {s : StreamState} {number generation : Nat} {rnd iv iv' w : Bytes}
    (hi : iv.length = 16) (hi' : iv'.length = 16) (hd : Holdable (.dict d)) (hw : w.length ≤ 9223372036854775807)
    (hs : s.dirty = true)
    (h : saveStream m c k F encryptionDirty resolve d s number generation rnd iv iv' = .ok (.stream d' w)) :
    LengthIs resolve d' w.length := by
  unfold saveStream at h
  obtain ⟨x, hx, h⟩ := except_bind_ok h
  obtain ⟨ch, _, h⟩ := except_bind_ok h
  obtain ⟨d1, hd1, h⟩ := except_bind_ok h
  obtain ⟨y, hy, h⟩ := except_bind_ok h
  injection h with h
  injection h with h1 h2
  subst h1 h2
  have e : ({ s with dirty := s.dirty || ch } : StreamState) = s := by rw [hs, Bool.true_or, ← hs]
  rw [e] at hy
  have hl := bodyEncoded_length hk hi hi' hx hy
  obtain ⟨_, _, lo, h3, h4, _⟩ := recalcLength_spec hd1 hd (by omega)
  rw [hl] at h4
  exact asInt_lengthIs h3 h4

/-- **C85** for streams the user did not change, in documents that are not encrypted: they are saved as they are. -/
theorem C85_plain (m : Overflow) (c : Codecs) (k : Crypto) {F : SecureFile} {resolve : Nat → Nat → Res Int} {d : Dict}
    {s : StreamState} (number generation : Nat) (rnd iv iv' : Bytes) (hF : F.dict = none) (hs : s.dirty = false)
    (hd : LengthIs resolve d s.raw.length) :
    saveStream m c k F false resolve d s number generation rnd iv iv' = .ok (.stream d s.raw) := by
  have hb : ∀ iv, bodyEncoded m c k F false s number generation rnd iv = .ok s.raw := by
    intro iv; unfold bodyEncoded; simp [SecureFile.isEncrypted, hF, hs]
  obtain ⟨h1, h2⟩ := recalc_same hd
  unfold saveStream
  rw [hb, ok_bind, h1, ok_bind, h2, ok_bind]
  have e : ({ s with dirty := s.dirty || false } : StreamState) = s := by rw [Bool.or_false]
  rw [e, hb]
  rfl

/-- **C85** for streams the user did not change, in encrypted documents whose streams are not encrypted with AES: they
are saved as they are.  Missing: documents that use AES, see the counterexamples. -/
theorem C85_rc4_partial {m : Overflow} {c : Codecs} {k : Crypto} (hk : Lawful k) {F : SecureFile} {e : EncDict} {alg : Algorithm}
    {encryptionDirty : Bool} {resolve : Nat → Nat → Res Int} {d : Dict} {o : SObj} {s : StreamState} {number generation : Nat}
    {rnd iv iv' : Bytes} (hn : number ≠ 0) (hF : F.dict = some e) (ha : defaultAlgorithm e e.streamFilter = .ok alg)
    (hna : alg ≠ .aes) (hent : F.entry number generation = some false) (hc : usesCrypt s.filter = false) (hs : s.dirty = false)
    (hca : CachesAgree m c k F s number generation rnd) (hd : LengthIs resolve d s.raw.length)
    (h : saveStream m c k F encryptionDirty resolve d s number generation rnd iv iv' = .ok o) :
    o = .stream d s.raw := by
  have hFe : F.isEncrypted = true := by simp [SecureFile.isEncrypted, hF]
  have hb : ∀ {iv x}, bodyEncoded m c k F encryptionDirty s number generation rnd iv = .ok x → x = s.raw := by
    intro iv x hx
    unfold bodyEncoded at hx
    rw [hFe, hs, if_neg (by simp), if_pos (by rfl)] at hx
    obtain ⟨b, hb, hx⟩ := except_bind_ok hx
    rw [bodyDecrypted_fresh hca] at hb
    unfold bodyDecrypted at hb
    unfold streamEncrypt at hx
    rw [hFe] at hb hx
    cases hex : s.exempt with
    | true =>
      rw [hex] at hx hb
      rw [← Except.ok.inj hx, ← Except.ok.inj hb]
    | false =>
      rw [hex] at hx hb
      simp only [Bool.not_true, Bool.or_self, Bool.false_eq_true, if_false] at hx hb
      have hb : decryptStream k F number generation rnd s.raw = .ok b := by
        cases hf : s.filter with
        | absent => rw [hf] at hb; exact hb
        | null => rw [hf] at hb; exact hb
        | one u =>
          rw [hf] at hb hc
          simp only [usesCrypt, decide_eq_false_iff_not] at hc
          dsimp only at hb
          rw [if_neg hc] at hb
          exact hb
        | many us =>
          rw [hf] at hb hc
          simp only [usesCrypt] at hc
          dsimp only at hb
          rw [List.find?_eq_none.mpr (by simpa using hc)] at hb
          exact hb
      unfold decryptStream at hb
      unfold encryptStream at hx
      rw [hF] at hb hx
      dsimp only at hb hx
      rw [ha, ok_bind] at hb hx
      exact decryptAlg_encryptAlg hk hF hna hn hent hb hx
  unfold saveStream at h
  obtain ⟨x, hx, h⟩ := except_bind_ok h
  rw [hb hx] at h
  obtain ⟨h1, h2⟩ := recalc_same hd
  rw [h1, ok_bind, h2, ok_bind] at h
  obtain ⟨y, hy, h⟩ := except_bind_ok h
  have e1 : ({ s with dirty := s.dirty || false } : StreamState) = s := by rw [Bool.or_false]
  rw [e1] at hy
  rw [hb hy] at h
  exact (Except.ok.inj h).symm

/-- **C85** for streams without filters that the user did not change, in encrypted documents and in documents whose
encryption was added or removed: the entry Length is the number of bytes saved, and these are the encrypted body. -/
theorem C85_unfiltered_partial {m : Overflow} {c : Codecs} {k : Crypto} (hk : Lawful k) {F : SecureFile} {encryptionDirty : Bool}
    {resolve : Nat → Nat → Res Int} {d d' : Dict} {s : StreamState} {number generation : Nat} {rnd iv iv' body w : Bytes}
    (hi : iv.length = 16) (hi' : iv'.length = 16) (hd : Holdable (.dict d)) (hw : w.length ≤ 9223372036854775807)
    (hF : F.isEncrypted = true ∨ encryptionDirty = true) (hf : s.filter = .absent ∨ s.filter = .null)
    (hca : CachesAgree m c k F s number generation rnd) (hb : bodyDecrypted k F s number generation rnd = .ok body)
    (h : saveStream m c k F encryptionDirty resolve d s number generation rnd iv iv' = .ok (.stream d' w)) :
    LengthIs resolve d' w.length ∧ streamEncrypt k F s.exempt number generation rnd iv' body = .ok w := by
  have hc : ∀ b : Bool, ¬ ((!F.isEncrypted && !encryptionDirty && b) = true) := by
    intro b hb; rcases hF with h | h <;> simp [h] at hb
  have hbody : streamBody m c k F s number generation rnd = .ok body := by
    rw [streamBody_fresh hca]
    rw [bodyDecrypted_fresh hca] at hb
    unfold streamBody
    dsimp only
    rw [hb, ok_bind]
    rcases hf with hf | hf <;> rw [hf]
  have he : ∀ iv dirty, bodyEncoded m c k F encryptionDirty { s with dirty := dirty } number generation rnd iv =
      streamEncrypt k F s.exempt number generation rnd iv body := by
    intro iv dirty
    have h1 : bodyDecrypted k F { s with dirty := dirty } number generation rnd = .ok body := hb
    have h2 : streamBody m c k F { s with dirty := dirty } number generation rnd = .ok body := hbody
    unfold bodyEncoded
    rw [if_neg (hc _), h1, h2, ok_bind, ok_bind]
    cases dirty with
    | false => rfl
    | true => rcases hf with hf | hf <;> rw [hf] <;> rfl
  unfold saveStream at h
  obtain ⟨x, hx, h⟩ := except_bind_ok h
  obtain ⟨ch, _, h⟩ := except_bind_ok h
  obtain ⟨d1, hd1, h⟩ := except_bind_ok h
  obtain ⟨y, hy, h⟩ := except_bind_ok h
  injection h with h
  injection h with h1 h2
  subst h1 h2
  rw [he] at hy
  have hx : streamEncrypt k F s.exempt number generation rnd iv body = .ok x := (he iv s.dirty).symm.trans hx
  have hl := streamEncrypt_length hk hi hi' hx hy
  obtain ⟨_, _, lo, h3, h4, _⟩ := recalcLength_spec hd1 hd (by omega)
  rw [hl] at h4
  exact ⟨asInt_lengthIs h3 h4, hy⟩

/-- A stream of a document encrypted with AES by another producer: it is decrypted to `body`, and its entry Length is the
number of bytes of the initialisation vector and of the padded data. -/
structure AesStream (k : Crypto) (F : SecureFile) (resolve : Nat → Nat → Res Int) (d : Dict) (s : StreamState)
    (number generation : Nat) (rnd body : Bytes) : Prop where
  key : ∃ e key, F.dict = some e ∧ fileKey k F e rnd = .ok key ∧ 11 ≤ key.length ∧
    defaultAlgorithm e e.streamFilter = .ok .aes ∧ e.entry ≠ some (number, generation)
  nonzero : number ≠ 0
  exempt : s.exempt = false
  unchanged : s.dirty = false
  length : LengthIs resolve d (16 + (Spec.pkcs7 body).length)
  decrypts : bodyDecrypted k F s number generation rnd = .ok body
  moderate : body.length + 32 < 2147483647

/-- What is saved for about half of these streams: the length is the one of the encrypted body, but the data are decoded
and encoded again. -/
theorem aes_saved {m : Overflow} {c : Codecs} {k : Crypto} (hk : Lawful k) {F : SecureFile} {encryptionDirty : Bool}
    {resolve : Nat → Nat → Res Int} {d : Dict} {s : StreamState} {number generation : Nat} {rnd iv iv' body : Bytes}
    (hi : iv.length = 16) (hA : AesStream k F resolve d s number generation rnd body) (h0 : body ≠ [])
    (h8 : body.length % 16 = 0 ∨ 8 ≤ body.length % 16) :
    saveStream m c k F encryptionDirty resolve d s number generation rnd iv iv' =
      (bodyEncoded m c k F encryptionDirty { s with dirty := true } number generation rnd iv').bind fun w =>
        .ok (.stream (mapInsert (b! "Length") (.int (aesSize body.length)) (mapErase (b! "Length") d)) w) := by
  obtain ⟨e, key, hF, hkey, h11, ha, hne⟩ := hA.key
  have hFe : F.isEncrypted = true := by simp [SecureFile.isEncrypted, hF]
  obtain ⟨x, hx⟩ := encryptAlg_ok (n := number) (g := generation) (alg := .aes) hk hF hkey hi hA.moderate (fun _ => h11)
  have hxl := encryptAlg_length hk hi hF hx
  rw [if_neg (by rintro ⟨_, h | h⟩; exacts [hA.nonzero h, hne h]), algSize, if_pos rfl] at hxl
  have hm : bodyEncoded m c k F encryptionDirty s number generation rnd iv = .ok x := by
    unfold bodyEncoded streamEncrypt encryptStream
    rw [hFe, hA.unchanged, if_neg (by simp), if_pos (by rfl), hA.decrypts, ok_bind, hA.exempt, if_neg (by simp), hF]
    dsimp only
    rw [ha, ok_bind, hx]
  have hp : (Spec.pkcs7 body).length = body.length + (16 - body.length % 16) := by
    rw [Spec.pkcs7, List.length_append, List.length_replicate]
  have hpos : body.length ≠ 0 := fun h => h0 (List.length_eq_zero_iff.mp h)
  have hl := hA.length
  rw [hp] at hl
  obtain ⟨h1, h2⟩ := recalc_other (size := aesSize body.length) hl (by
    unfold aesSize addedBytes
    rw [if_neg hpos]
    rcases h8 with h | h
    · rw [if_pos h]; omega
    · rw [if_neg (by omega)]; omega)
  unfold saveStream
  rw [hm, ok_bind, hxl, h1, ok_bind, h2, ok_bind, hA.unchanged]
  rfl

/-- **C85** fails for documents encrypted with AES: a document with a stream that has a filter which the library can decode
but not encode cannot be saved, although nobody changed the stream. -/
theorem C85_unsupported_counterexample {m : Overflow} {c : Codecs} {k : Crypto} (hk : Lawful k) {F : SecureFile}
    {encryptionDirty : Bool} {resolve : Nat → Nat → Res Int} {d : Dict} {s : StreamState} {number generation : Nat}
    {rnd iv iv' body : Bytes} {u : FilterUse} (hi : iv.length = 16) (hA : AesStream k F resolve d s number generation rnd body)
    (h0 : body ≠ []) (h8 : body.length % 16 = 0 ∨ 8 ≤ body.length % 16) (hf : s.filter = .one u)
    (hu : u.filter = .asciiHex ∨ u.filter = .ascii85 ∨ u.filter = .jpx)
    (hb : ∃ b, streamBody m c k F s number generation rnd = .ok b) :
    saveStream m c k F encryptionDirty resolve d s number generation rnd iv iv' = .error .notSupported := by
  obtain ⟨b, hb⟩ := hb
  have hb' : streamBody m c k F { s with dirty := true } number generation rnd = .ok b := hb
  obtain ⟨e, key, hF, _⟩ := hA.key
  have hFe : F.isEncrypted = true := by simp [SecureFile.isEncrypted, hF]
  rw [aes_saved hk hi hA h0 h8]
  unfold bodyEncoded
  rw [hFe, if_neg (by simp), if_neg (by simp), hb', ok_bind, hf]
  dsimp only
  rcases hu with hu | hu | hu <;> rw [hu] <;> rfl

/-- **C85** and confidentiality fail for documents encrypted with AES: an unchanged stream whose filters are given as an
array is written without encryption, as in a document that is not encrypted. -/
theorem C85_clear_counterexample {m : Overflow} {c : Codecs} {k : Crypto} (hk : Lawful k) {F : SecureFile}
    {encryptionDirty : Bool} {resolve : Nat → Nat → Res Int} {d : Dict} {s : StreamState} {number generation : Nat}
    {rnd iv iv' body : Bytes} {us : List FilterUse} {b w : Bytes} (hi : iv.length = 16)
    (hA : AesStream k F resolve d s number generation rnd body) (h0 : body ≠ [])
    (h8 : body.length % 16 = 0 ∨ 8 ≤ body.length % 16) (hf : s.filter = .many us) (hc : usesCrypt s.filter = false)
    (hb : streamBody m c k F s number generation rnd = .ok b)
    (hw : encodeMany c k { F with dict := none } true 0 0 [] [] us b = .ok w) :
    saveStream m c k F encryptionDirty resolve d s number generation rnd iv iv' =
      .ok (.stream (mapInsert (b! "Length") (.int (aesSize body.length)) (mapErase (b! "Length") d)) w) := by
  have hb' : streamBody m c k F { s with dirty := true } number generation rnd = .ok b := hb
  obtain ⟨e, key, hF, _⟩ := hA.key
  have hFe : F.isEncrypted = true := by simp [SecureFile.isEncrypted, hF]
  rw [hf] at hc
  simp only [usesCrypt] at hc
  rw [aes_saved hk hi hA h0 h8]
  unfold bodyEncoded
  rw [hFe, if_neg (by simp), if_neg (by simp), hb', ok_bind, hf]
  dsimp only
  rw [encodeMany_plain c k F _ _ _ _ _ us _ hc, hw]
  rfl

/-- **C85** fails for documents encrypted with AES: the Length of an unchanged Flate stream is computed from the data of the
original producer, but the bytes saved come from compressing the contents again. -/
theorem C85_length_counterexample {m : Overflow} {c : Codecs} {k : Crypto} (hk : Lawful k) {F : SecureFile}
    {encryptionDirty : Bool} {resolve : Nat → Nat → Res Int} {d : Dict} {s : StreamState} {number generation : Nat}
    {rnd iv iv' body : Bytes} {u : FilterUse} {b : Bytes} (hi : iv.length = 16) (hi' : iv'.length = 16)
    (hA : AesStream k F resolve d s number generation rnd body) (h0 : body ≠ [])
    (h8 : body.length % 16 = 0 ∨ 8 ≤ body.length % 16) (hf : s.filter = .one u) (hu : u.filter = .flate)
    (hb : streamBody m c k F s number generation rnd = .ok b) (hlen : (c.deflate b).length + 32 < 2147483647) :
    ∃ w, saveStream m c k F encryptionDirty resolve d s number generation rnd iv iv' =
        .ok (.stream (mapInsert (b! "Length") (.int (aesSize body.length)) (mapErase (b! "Length") d)) w) ∧
      w.length = aesSize (c.deflate b).length := by
  have hb' : streamBody m c k F { s with dirty := true } number generation rnd = .ok b := hb
  obtain ⟨e, key, hF, hkey, h11, ha, hne⟩ := hA.key
  have hFe : F.isEncrypted = true := by simp [SecureFile.isEncrypted, hF]
  obtain ⟨w, hw⟩ := encryptAlg_ok (n := number) (g := generation) (alg := .aes) hk hF hkey hi' hlen (fun _ => h11)
  have hwl := encryptAlg_length hk hi' hF hw
  rw [if_neg (by rintro ⟨_, h | h⟩; exacts [hA.nonzero h, hne h]), algSize, if_pos rfl] at hwl
  refine ⟨w, ?_, hwl⟩
  rw [aes_saved hk hi hA h0 h8]
  unfold bodyEncoded
  rw [hFe, if_neg (by simp), if_neg (by simp), hb', ok_bind, hf]
  dsimp only
  rw [hu, if_neg (by decide)]
  unfold filterEncode streamEncrypt encryptStream
  dsimp only
  rw [ok_bind, hFe, hA.exempt, if_neg (by simp), hF]
  dsimp only
  rw [ha, ok_bind, hw]
  rfl

/-! ### Samples -/

/-- A document encrypted with AES. -/
def sampleAes : SecureFile := sampleSecure (some [(b! "StdCF", some (b! "AESV2"))]) 4

/-- A stream of this document with object number 3, as another producer stored it. -/
def sampleAesStream (filter : StreamFilter) (block : Bytes) : StreamState :=
  { filter := filter
    raw := b! "fedcba9876543210" ++
      Spec.chained (sampleCrypto.blockEnc (computeObjectKey sampleCrypto (b! "0123456789abcdef") 3 0 .aes)) (b! "fedcba9876543210") [block]
    decrypted := none, decoded := none, dirty := false, exempt := false }

set_option maxRecDepth 100000 in
/-- A page in hexadecimal digits: the hypotheses are met, and the document cannot be saved. -/
theorem sampleAesDigits : AesStream sampleCrypto sampleAes (fun _ _ => .error .missing) [(b! "Length", .int 32)]
    (sampleAesStream (.one ⟨.asciiHex, {}, none⟩) (b! "7061676531>" ++ List.replicate 5 5)) 3 0 [] (b! "7061676531>") where
  key := ⟨_, _, rfl, rfl, by decide, by decide +kernel, by decide⟩
  nonzero := by decide
  exempt := rfl
  unchanged := rfl
  length := .inl (by rfl)
  decrypts := by decide +kernel
  moderate := by decide

set_option maxRecDepth 100000 in
example : saveStream .wrap toyCodecs sampleCrypto sampleAes false (fun _ _ => .error .missing) [(b! "Length", .int 32)]
    (sampleAesStream (.one ⟨.asciiHex, {}, none⟩) (b! "7061676531>" ++ List.replicate 5 5)) 3 0 [] (b! "0123456789012345")
    (b! "5432109876543210") = .error .notSupported :=
  C85_unsupported_counterexample sampleCrypto_lawful (by decide) sampleAesDigits (by decide) (.inr (by decide)) rfl (.inl rfl)
    ⟨b! "page1", by decide +kernel⟩

/-- A stand-in for zlib that also reads a longer form of compressed data. -/
def longerCodecs : Codecs :=
  { toyCodecs with inflate := fun d => match d with | 1 :: r => .ok r | 3 :: _ :: r => .ok r | _ => .error .throw }

set_option maxRecDepth 100000 in
theorem sampleFlate (us : StreamFilter) (hu : us = .one ⟨.flate, {}, none⟩ ∨ us = .many [⟨.flate, {}, none⟩]) :
    AesStream sampleCrypto sampleAes (fun _ _ => .error .missing) [(b! "Length", .int 32)]
      (sampleAesStream us (3 :: 0 :: b! "page 1" ++ List.replicate 8 8)) 3 0 [] (3 :: 0 :: b! "page 1") where
  key := ⟨_, _, rfl, rfl, by decide, by decide +kernel, by decide⟩
  nonzero := by decide
  exempt := rfl
  unchanged := rfl
  length := .inl (by rfl)
  decrypts := by rcases hu with rfl | rfl <;> decide +kernel
  moderate := by decide

set_option maxRecDepth 100000 in
/-- Eight bytes of data compress to seven; the Length is the one for eight. -/
example : ∃ w, saveStream .wrap longerCodecs sampleCrypto sampleAes false (fun _ _ => .error .missing) [(b! "Length", .int 32)]
      (sampleAesStream (.one ⟨.flate, {}, none⟩) (3 :: 0 :: b! "page 1" ++ List.replicate 8 8)) 3 0 [] (b! "0123456789012345")
      (b! "5432109876543210") = .ok (.stream [(b! "Length", .int 48)] w) ∧ w.length = 32 :=
  C85_length_counterexample (u := ⟨.flate, {}, none⟩) (b := b! "page 1") sampleCrypto_lawful (by decide) (by decide)
    (sampleFlate _ (.inl rfl)) (by decide) (.inr (by decide)) rfl rfl (by decide +kernel) (by decide)

set_option maxRecDepth 100000 in
/-- In an array the same filter leaves the contents readable in the saved file. -/
example : saveStream .wrap longerCodecs sampleCrypto sampleAes false (fun _ _ => .error .missing) [(b! "Length", .int 32)]
      (sampleAesStream (.many [⟨.flate, {}, none⟩]) (3 :: 0 :: b! "page 1" ++ List.replicate 8 8)) 3 0 [] (b! "0123456789012345")
      (b! "5432109876543210") = .ok (.stream [(b! "Length", .int 48)] (1 :: b! "page 1")) :=
  C85_clear_counterexample (us := [⟨.flate, {}, none⟩]) (b := b! "page 1") sampleCrypto_lawful (by decide)
    (sampleFlate _ (.inr rfl)) (by decide) (.inr (by decide)) rfl rfl (by decide +kernel) rfl

set_option maxRecDepth 100000 in
/-- The hypotheses for streams without filters: seven bytes without a filter are saved with the right length. -/
example : CachesAgree .wrap toyCodecs sampleCrypto sampleAes (sampleAesStream .absent (b! "page 10" ++ List.replicate 9 9)) 3 0 [] ∧
    bodyDecrypted sampleCrypto sampleAes (sampleAesStream .absent (b! "page 10" ++ List.replicate 9 9)) 3 0 [] = .ok (b! "page 10") :=
  ⟨⟨nofun, nofun⟩, by decide +kernel⟩

theorem isOk_some {α : Type} {r : Res α} (h : r.isOk = true) : ∃ a, r = .ok a := by
  cases r with
  | error e => cases h
  | ok a => exact ⟨a, rfl⟩

/-- An encrypted stream with a filter the library does not know. -/
def sampleStored : StreamState :=
  { filter := .one ⟨.other, {}, none⟩, raw := b! "#2@1!", decrypted := none, decoded := none, dirty := false, exempt := false }

set_option maxRecDepth 100000 in
/-- With RC4 this stream is saved as it is. -/
example : saveStream .wrap toyCodecs sampleCrypto (sampleSecure none 2) false (fun _ _ => .ok 5) [(b! "Length", .ref 9 0)]
    sampleStored 5 0 [] [] [] = .ok (.stream [(b! "Length", .ref 9 0)] (b! "#2@1!")) := by
  obtain ⟨o, h⟩ := isOk_some (r := saveStream .wrap toyCodecs sampleCrypto (sampleSecure none 2) false (fun _ _ => .ok 5)
    [(b! "Length", .ref 9 0)] sampleStored 5 0 [] [] []) (by decide +kernel)
  rw [h, C85_rc4_partial (alg := .rc4) sampleCrypto_lawful (by decide) rfl (by decide +kernel) (by decide) (by decide) rfl rfl ⟨(fun _ h => by cases h), (fun _ h => by cases h)⟩
    (.inr (.inr ⟨9, 0, rfl, rfl⟩)) h]
  rfl

/-- A stream whose contents the user replaced, in the document encrypted with AES. -/
def sampleReplaced : StreamState :=
  { filter := .one ⟨.flate, {}, none⟩, raw := b! "old", decrypted := some (b! "old"), decoded := some (b! "new contents"), dirty := true
    exempt := false }

set_option maxRecDepth 100000 in
example : ∃ d w, saveStream .wrap toyCodecs sampleCrypto sampleAes false (fun _ _ => .error .missing) [(b! "Length", .int 3)]
    sampleReplaced 5 0 [] (b! "0123456789012345") (b! "5432109876543210") = .ok (.stream d w) ∧
    LengthIs (fun _ _ => .error .missing) d w.length := by
  obtain ⟨o, h⟩ := isOk_some (r := saveStream .wrap toyCodecs sampleCrypto sampleAes false (fun _ _ => .error .missing)
    [(b! "Length", .int 3)] sampleReplaced 5 0 [] (b! "0123456789012345") (b! "5432109876543210")) (by decide +kernel)
  have hw : (match saveStream .wrap toyCodecs sampleCrypto sampleAes false (fun _ _ => .error .missing)
      [(b! "Length", .int 3)] sampleReplaced 5 0 [] (b! "0123456789012345") (b! "5432109876543210") with
    | .ok (.stream _ w) => w.length
    | _ => 0) = 48 := by decide +kernel
  rw [h] at hw
  cases o with
  | direct o => cases hw
  | stream d w =>
    dsimp only at hw
    refine ⟨d, w, h, C85_changed sampleCrypto_lawful (by decide) (by decide) ?_ (by omega) rfl h⟩
    exact .dict _ (List.pairwise_singleton _ _) (by intro x hx; simp at hx; subst hx; exact .int _ (by omega) (by omega))

example : saveStream .wrap toyCodecs sampleCrypto { sampleAes with dict := none } false (fun _ _ => .error .missing)
    [(b! "Length", .int 5)] sampleStored 5 0 [] [] [] = .ok (.stream [(b! "Length", .int 5)] (b! "#2@1!")) :=
  C85_plain _ _ _ _ _ _ _ _ rfl rfl (.inl rfl)

end VPdf
