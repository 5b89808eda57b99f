import Verif.Lemmas.RemoveEncryption
import Verif.Props.StreamSave

/-! # Removing the encryption of a document (C86) -/
namespace VPdf
open Spec (Lawful LengthIs CachesAgree Holdable ReadAs EntriesReadAs)

/-- **C86**: after `RemoveEncryption` the document is not encrypted, its newest trailer has no entry `Encrypt` and keeps
its other entries, and no object was added or removed. -/
theorem C86_document {m : Overflow} {c : Codecs} {k : Crypto} {rnd : Bytes} {doc doc' : SecDoc}
    (he : doc.file.isEncrypted = true) (h : removeEncryption m c k rnd doc = .ok doc') :
    doc'.file.isEncrypted = false ∧
    (∃ s s' ss ss', doc.sections = s :: ss ∧ doc'.sections = s' :: ss' ∧
      Spec.valueAt (b! "Encrypt") s'.trailer = none ∧
      ∀ key, key ≠ b! "Encrypt" → Spec.valueAt key s'.trailer = Spec.valueAt key s.trailer) ∧
    ∀ i j, (doc'.at i j).map (fun e => (e.num, e.gen, e.object.isSome)) =
      (doc.at i j).map fun e => (e.num, e.gen, e.object.isSome) := by
  have h0 := h
  unfold removeEncryption at h
  rw [he, if_neg (by simp)] at h
  obtain ⟨ss, h1, h⟩ := except_bind_ok h
  refine ⟨by rw [(removed_doc he h0).1]; rfl, ?_, ?_⟩
  · cases hd : doc.sections with
    | nil =>
      rw [hd] at h1
      cases Except.ok.inj h1
      cases h
    | cons s rest =>
      rw [hd] at h1
      unfold forceSections at h1
      obtain ⟨es, _, h1⟩ := except_bind_ok h1
      obtain ⟨ss1, _, h1⟩ := except_bind_ok h1
      cases Except.ok.inj h1
      cases Except.ok.inj h
      refine ⟨s, _, rest, _, rfl, rfl, ?_, ?_⟩
      · rw [valueAt_eq, mapErase_find, if_pos rfl]
      · intro key hk
        rw [valueAt_eq, valueAt_eq, mapErase_find, if_neg hk]
  · intro i j
    cases ss with
    | nil => cases h
    | cons s0 rest =>
      cases Except.ok.inj h
      have hat : ((SecDoc.mk { doc.file with dict := none } true
          ({ s0 with trailer := mapErase (b! "Encrypt") s0.trailer } :: rest)).at i j) =
          ((s0 :: rest)[i]?).bind (·.entries[j]?) := by
        unfold SecDoc.at
        cases i <;> rfl
      rw [hat]
      unfold SecDoc.at
      cases hs : doc.sections[i]? with
      | none => rw [(forceSections_get h1 i).1 hs]
      | some s =>
        obtain ⟨es, h2, h3⟩ := (forceSections_get h1 i).2 s hs
        rw [h3]
        show (es[j]?).map _ = (s.entries[j]?).map _
        cases he' : s.entries[j]? with
        | none => rw [(forceSection_get h2 j).1 he']
        | some e =>
          obtain ⟨n, g, o⟩ := e
          have := (forceSection_get h2 j).2 n g o he'
          cases o with
          | none => simp [show es[j]? = some (SecEntry.mk n g none) from this]
          | some t => obtain ⟨t', _, h5⟩ := this; simp [h5]

/-- **C86** for objects that are no streams: they are saved with their strings as the API read them before. -/
theorem C86_strings {m : Overflow} {c : Codecs} {k : Crypto} {rnd : Bytes} {doc doc' : SecDoc}
    (he : doc.file.isEncrypted = true) (h : removeEncryption m c k rnd doc = .ok doc') {i j n g : Nat} {o : SecObj}
    (ho : doc.at i j = some ⟨n, g, some (.direct o)⟩) (resolve : Nat → Nat → Res Int) (iv iv' : Bytes) :
    ∃ t w, doc'.at i j = some ⟨n, g, some t⟩ ∧
      savedTop m c k doc' resolve n g rnd iv iv' t = .ok (.direct w) ∧ ReadAs k doc.file n g rnd o w := by
  obtain ⟨t, h1, h2⟩ := removed_at he h ho
  unfold forceTop at h1
  obtain ⟨o', h3, h1⟩ := except_bind_ok h1
  cases Except.ok.inj h1
  obtain ⟨w, h4, h5⟩ := forceObj_saved iv h3
  refine ⟨_, w, h2, ?_, h5⟩
  show (savedObj k doc'.file n g rnd iv o' >>= fun o => pure (SObj.direct o)) = _
  rw [(removed_doc he h).1]
  exact h4 ▸ rfl

/-- **C86** for streams the user did not change: they are saved decrypted, with a right Length, when they have no filter or
when their decrypted data have as many bytes as their Length tells, which is so unless the document uses AES; and reading
them gives what the API returned before.  Missing: streams with filters in documents that use AES, see the
counterexamples. -/
theorem C86_streams_partial {m : Overflow} {c : Codecs} {k : Crypto} {rnd : Bytes} {doc doc' : SecDoc}
    (he : doc.file.isEncrypted = true) (h : removeEncryption m c k rnd doc = .ok doc') {i j n g : Nat}
    {entries : List (Bytes × SecObj)} {s : StreamState} (ho : doc.at i j = some ⟨n, g, some (.stream entries s)⟩)
    {body : Bytes} (hb : bodyDecrypted k doc.file s n g rnd = .ok body) (hdec : ∀ b, s.decoded = some b → s.decrypted.isSome)
    (hca : CachesAgree m c k doc.file s n g rnd) (hs : s.dirty = false) {resolve : Nat → Nat → Res Int} {l : Nat}
    (hl : ∀ d, EntriesReadAs k doc.file n g rnd entries d → LengthIs resolve d l)
    (hc : (s.filter = .absent ∨ s.filter = .null) ∨ l = body.length) (iv iv' : Bytes) :
    ∃ t d d' b, doc'.at i j = some ⟨n, g, some t⟩ ∧ EntriesReadAs k doc.file n g rnd entries d ∧
      savedTop m c k doc' resolve n g rnd iv iv' t = .ok (.stream d' body) ∧
      LengthIs resolve d' body.length ∧ (∀ key, key ≠ b! "Length" → Spec.valueAt key d' = Spec.valueAt key d) ∧
      streamBody m c k doc.file s n g rnd = .ok b ∧
      streamBody m c k doc'.file ⟨s.filter, body, none, none, false, false⟩ n g rnd = .ok b := by
  obtain ⟨es, s', d, b, h1, h2, h3, h4, k1, k2, k3, k4⟩ := removed_stream he h ho hb hdec iv
  have hread : streamBody m c k doc'.file ⟨s.filter, body, none, none, false, false⟩ n g rnd = .ok b := by
    rw [streamBody_fresh hca] at h3
    rw [bodyDecrypted_fresh hca] at hb
    rw [(removed_doc he h).1]
    unfold streamBody at h3 ⊢
    dsimp only at h3 ⊢
    rw [hb, ok_bind] at h3
    exact h3
  have hm : ∀ iv, bodyEncoded m c k { doc.file with dict := none } true s' n g rnd iv = .ok body := by
    intro iv
    unfold bodyEncoded bodyDecrypted
    rw [k3, hs, k1]
    simp [streamEncrypt, SecureFile.isEncrypted, bind, Except.bind]
  obtain ⟨o, hlo⟩ := lengthIs_asInt (hl d h2)
  by_cases hlen : l = body.length
  · subst hlen
    obtain ⟨r1, r2⟩ := recalc_same (hl d h2)
    refine ⟨_, d, d, b, h1, h2, ?_, hl d h2, fun _ _ => rfl, h3, hread⟩
    rw [h4]
    unfold saveStream
    rw [hm, ok_bind, r1, ok_bind, r2, ok_bind]
    have e : ({ s' with dirty := s'.dirty || false } : StreamState) = s' := by rw [Bool.or_false]
    rw [e, hm]
    rfl
  · have hf := hc.resolve_right hlen
    obtain ⟨r1, r2⟩ := recalc_other (hl d h2) hlen
    have hbb : b = body := by
      unfold streamBody bodyDecrypted at hread
      rw [(removed_doc he h).1] at hread
      rcases hf with hf | hf <;> rw [hf] at hread <;> exact (Except.ok.inj hread).symm
    refine ⟨_, d, mapInsert (b! "Length") (.int body.length) (mapErase (b! "Length") d), b, h1, h2, ?_, ?_, ?_, h3, hread⟩
    · rw [h4]
      unfold saveStream
      rw [hm, ok_bind, r1, ok_bind, r2, ok_bind]
      have : bodyEncoded m c k { doc.file with dict := none } true { s' with dirty := s'.dirty || true } n g rnd iv' = .ok body := by
        have h5 : streamBody m c k { doc.file with dict := none } { s' with dirty := s'.dirty || true } n g rnd = .ok b :=
          k4 { doc.file with dict := none }
        unfold bodyEncoded
        rw [if_neg (by simp), if_neg (by simp), h5, ok_bind, k2, hbb]
        rcases hf with hf | hf <;> rw [hf] <;> simp [streamEncrypt, SecureFile.isEncrypted]
      rw [this]
      rfl
    · exact .inl (by rw [valueAt_eq, reinsert_find, if_pos rfl])
    · intro key hk
      rw [valueAt_eq, valueAt_eq, reinsert_find, if_neg hk]

/-- What is saved for a stream that was not changed and whose decrypted data have another size than its Length tells. -/
theorem removed_resized {m : Overflow} {c : Codecs} {k : Crypto} {rnd : Bytes} {doc doc' : SecDoc}
    (he : doc.file.isEncrypted = true) (h : removeEncryption m c k rnd doc = .ok doc') {i j n g : Nat}
    {entries : List (Bytes × SecObj)} {s : StreamState} (ho : doc.at i j = some ⟨n, g, some (.stream entries s)⟩)
    {body : Bytes} (hb : bodyDecrypted k doc.file s n g rnd = .ok body) (hdec : ∀ b, s.decoded = some b → s.decrypted.isSome)
    (hs : s.dirty = false) {resolve : Nat → Nat → Res Int} {l : Nat}
    (hl : ∀ d, EntriesReadAs k doc.file n g rnd entries d → LengthIs resolve d l) (hlen : l ≠ body.length)
    {u : FilterUse} (hf : s.filter = .one u) (hu : u.filter ≠ .crypt) (iv iv' : Bytes) :
    ∃ t d b, doc'.at i j = some ⟨n, g, some t⟩ ∧ EntriesReadAs k doc.file n g rnd entries d ∧
      streamBody m c k doc.file s n g rnd = .ok b ∧
      savedTop m c k doc' resolve n g rnd iv iv' t = (do
        let w ← filterEncode c u.filter u.params b
        pure (.stream (mapInsert (b! "Length") (.int body.length) (mapErase (b! "Length") d)) w)) := by
  obtain ⟨es, s', d, b, h1, h2, h3, h4, k1, k2, k3, k4⟩ := removed_stream he h ho hb hdec iv
  have hm : bodyEncoded m c k { doc.file with dict := none } true s' n g rnd iv = .ok body := by
    unfold bodyEncoded bodyDecrypted
    rw [k3, hs, k1]
    simp [streamEncrypt, SecureFile.isEncrypted, bind, Except.bind]
  obtain ⟨r1, r2⟩ := recalc_other (hl d h2) hlen
  refine ⟨_, d, b, h1, h2, h3, ?_⟩
  rw [h4]
  unfold saveStream
  rw [hm, ok_bind, r1, ok_bind, r2, ok_bind]
  have : bodyEncoded m c k { doc.file with dict := none } true { s' with dirty := s'.dirty || true } n g rnd iv' =
      filterEncode c u.filter u.params b := by
    have h5 : streamBody m c k { doc.file with dict := none } { s' with dirty := s'.dirty || true } n g rnd = .ok b :=
      k4 { doc.file with dict := none }
    unfold bodyEncoded
    rw [if_neg (by simp), if_neg (by simp), h5, ok_bind, k2, hf]
    dsimp only
    rw [if_neg hu]
    cases filterEncode c u.filter u.params b with
    | error e => rfl
    | ok w => simp [bind, Except.bind, streamEncrypt, SecureFile.isEncrypted]
  rw [this]

/-- **C86** fails for documents encrypted with AES, where encrypted data are longer than decrypted data: a stream with an
ASCII or JPEG 2000 filter makes saving fail. -/
theorem C86_save_counterexample {m : Overflow} {c : Codecs} {k : Crypto} {rnd : Bytes} {doc doc' : SecDoc}
    (he : doc.file.isEncrypted = true) (h : removeEncryption m c k rnd doc = .ok doc') {i j n g : Nat}
    {entries : List (Bytes × SecObj)} {s : StreamState} (ho : doc.at i j = some ⟨n, g, some (.stream entries s)⟩)
    {body : Bytes} (hb : bodyDecrypted k doc.file s n g rnd = .ok body) (hdec : ∀ b, s.decoded = some b → s.decrypted.isSome)
    (hs : s.dirty = false) {resolve : Nat → Nat → Res Int} {l : Nat}
    (hl : ∀ d, EntriesReadAs k doc.file n g rnd entries d → LengthIs resolve d l) (hlen : l ≠ body.length)
    {u : FilterUse} (hf : s.filter = .one u) (hu : u.filter = .asciiHex ∨ u.filter = .ascii85 ∨ u.filter = .jpx) (iv iv' : Bytes) :
    ∃ t, doc'.at i j = some ⟨n, g, some t⟩ ∧ savedTop m c k doc' resolve n g rnd iv iv' t = .error .notSupported := by
  obtain ⟨t, d, b, h1, _, _, h2⟩ := removed_resized he h ho hb hdec hs hl hlen hf
    (by rcases hu with hu | hu | hu <;> rw [hu] <;> decide) iv iv'
  refine ⟨t, h1, h2.trans ?_⟩
  rcases hu with hu | hu | hu <;> rw [hu] <;> rfl

/-- **C86** fails for documents encrypted with AES: a Flate stream is compressed again, but without its predictor and with
the Length of the former data.  Reading it undoes a predictor that was not applied. -/
theorem C86_flate_counterexample {m : Overflow} {c : Codecs} (hc : Spec.Lossless c) {k : Crypto} {rnd : Bytes} {doc doc' : SecDoc}
    (he : doc.file.isEncrypted = true) (h : removeEncryption m c k rnd doc = .ok doc') {i j n g : Nat}
    {entries : List (Bytes × SecObj)} {s : StreamState} (ho : doc.at i j = some ⟨n, g, some (.stream entries s)⟩)
    {body : Bytes} (hb : bodyDecrypted k doc.file s n g rnd = .ok body) (hdec : ∀ b, s.decoded = some b → s.decrypted.isSome)
    (hs : s.dirty = false) {resolve : Nat → Nat → Res Int} {l : Nat}
    (hl : ∀ d, EntriesReadAs k doc.file n g rnd entries d → LengthIs resolve d l) (hlen : l ≠ body.length)
    {u : FilterUse} (hf : s.filter = .one u) (hu : u.filter = .flate) (iv iv' : Bytes) :
    ∃ t d' b, doc'.at i j = some ⟨n, g, some t⟩ ∧ streamBody m c k doc.file s n g rnd = .ok b ∧
      savedTop m c k doc' resolve n g rnd iv iv' t = .ok (.stream d' (c.deflate b)) ∧ LengthIs resolve d' body.length ∧
      streamBody m c k doc'.file ⟨s.filter, c.deflate b, none, none, false, false⟩ n g rnd = applyPredictor u.params b := by
  obtain ⟨t, d, b, h1, _, h3, h2⟩ := removed_resized he h ho hb hdec hs hl hlen hf (by rw [hu]; decide) iv iv'
  refine ⟨t, _, b, h1, h3, h2.trans (by rw [hu]; rfl), .inl (by rw [valueAt_eq, reinsert_find, if_pos rfl]), ?_⟩
  rw [(removed_doc he h).1]
  unfold streamBody
  rw [hf]
  dsimp only
  rw [hu]
  show (c.inflate (c.deflate b) >>= fun x => applyPredictor u.params x) = _
  rw [hc]
  rfl

/-- **C86** fails for a document with any stream whose filter the library cannot decode, such as LZW, CCITT fax or JBIG2:
`RemoveEncryption` fails, although nothing but decryption would be needed. -/
theorem C86_undecodable_counterexample (m : Overflow) (c : Codecs) (k : Crypto) (rnd : Bytes) {doc : SecDoc}
    (he : doc.file.isEncrypted = true) {i j n g : Nat} {entries : List (Bytes × SecObj)} {s : StreamState}
    (ho : doc.at i j = some ⟨n, g, some (.stream entries s)⟩) (hd : s.decoded = none) {u : FilterUse} (hf : s.filter = .one u)
    (hu : u.filter = .lzw ∨ u.filter = .other) : ∃ e, removeEncryption m c k rnd doc = .error e := by
  cases h : removeEncryption m c k rnd doc with
  | error e => exact ⟨e, rfl⟩
  | ok doc' =>
    obtain ⟨t, h1, _⟩ := removed_at he h ho
    unfold forceTop at h1
    obtain ⟨s', h3, _⟩ := except_bind_ok h1
    unfold forceStream at h3
    rw [hd] at h3
    dsimp only at h3
    obtain ⟨b, hb, h3⟩ := except_bind_ok h3
    obtain ⟨x, hx, _⟩ := except_bind_ok h3
    unfold streamBody at hx
    rw [hd] at hx
    dsimp only at hx
    rw [hb, ok_bind, hf] at hx
    rcases hu with hu | hu <;> (dsimp only at hx; rw [hu] at hx; cases hx)

/-! ### Samples -/

/-- A string of the object 4 of `sampleAes`, as another producer stored it. -/
def sampleAesString (block : Bytes) : SecString :=
       { hex := false
         stored := b! "fedcba9876543210" ++
           Spec.chained (sampleCrypto.blockEnc (computeObjectKey sampleCrypto (b! "0123456789abcdef") 4 0 .aes)) (b! "fedcba9876543210") [block]
         value := none, exempt := false }

/-- A document encrypted with AES of two sections: an older one with a dictionary and a free entry, and a newer one with a
stream. -/
def sampleEncrypted (stream : SecTop) : SecDoc where
  file := sampleAes
  encryptionDirty := false
  sections :=
    [{ trailer := [(b! "Encrypt", .ref 9 0), (b! "Root", .ref 1 0)], entries := [⟨3, 0, some stream⟩] },
     { trailer := [(b! "Encrypt", .ref 9 0), (b! "Root", .ref 1 0)]
       entries := [⟨4, 0, some (.direct (.dict [(b! "Kids", .arr [.other (.int 5)]),
         (b! "Title", .str (sampleAesString (b! "Report" ++ List.replicate 10 10)))]))⟩, ⟨5, 65535, none⟩] }]

/-- A stream of two rows of two samples with a PNG predictor, compressed by `toyCodecs`. -/
def samplePredicted : SecTop :=
  .stream [(b! "Length", .other (.int 32))]
    (sampleAesStream (.one ⟨.flate, { predictor := 12, columns := 2 }, none⟩) ([1, 2, 2, 8, 2, 5, 1] ++ List.replicate 9 9))

/-- A stream without a filter. -/
def sampleUnfiltered : SecTop :=
  .stream [(b! "Length", .other (.int 32))] (sampleAesStream .absent (b! "page 1" ++ List.replicate 10 10))

/-- A stream in hexadecimal digits. -/
def sampleDigits : SecTop :=
  .stream [(b! "Length", .other (.int 32))]
    (sampleAesStream (.one ⟨.asciiHex, {}, none⟩) (b! "7061676531>" ++ List.replicate 5 5))

set_option maxRecDepth 100000 in
theorem sampleRemoved : (∃ doc, removeEncryption .wrap toyCodecs sampleCrypto [] (sampleEncrypted samplePredicted) = .ok doc) ∧
    (∃ doc, removeEncryption .wrap toyCodecs sampleCrypto [] (sampleEncrypted sampleUnfiltered) = .ok doc) ∧
    ∃ doc, removeEncryption .wrap toyCodecs sampleCrypto [] (sampleEncrypted sampleDigits) = .ok doc :=
  ⟨isOk_some (by decide +kernel), isOk_some (by decide +kernel), isOk_some (by decide +kernel)⟩

/-- The entries of the sample streams are read in one way. -/
theorem sampleEntries {k : Crypto} {F : SecureFile} {n g : Nat} {rnd : Bytes} {l : Nat} {resolve : Nat → Nat → Res Int} :
    ∀ d, EntriesReadAs k F n g rnd [(b! "Length", .other (.int l))] d → LengthIs resolve d l := by
  intro d h
  cases h with
  | cons h1 h2 =>
    cases h1
    cases h2
    exact .inl rfl

set_option maxRecDepth 100000 in
/-- The title of the older section is saved as it was read. -/
example : ∃ doc t w, removeEncryption .wrap toyCodecs sampleCrypto [] (sampleEncrypted samplePredicted) = .ok doc ∧
    doc.at 1 0 = some ⟨4, 0, some t⟩ ∧
    savedTop .wrap toyCodecs sampleCrypto doc (fun _ _ => .error .missing) 4 0 [] [] [] t = .ok (.direct w) ∧
    w = .dict [(b! "Kids", .arr [.int 5]), (b! "Title", .lit (b! "Report"))] := by
  obtain ⟨doc, h⟩ := sampleRemoved.1
  obtain ⟨t, w, h1, h2, h3⟩ := C86_strings rfl h (i := 1) (j := 0) rfl (fun _ _ => .error .missing) [] []
  refine ⟨doc, t, w, h, h1, h2, ?_⟩
  have hv : stringRead sampleCrypto sampleAes false 4 0 [] (sampleAesString (b! "Report" ++ List.replicate 10 10)).stored =
      .ok (b! "Report") := by
    decide +kernel
  cases h3 with
  | dict h3 =>
    cases h3 with
    | cons h4 h5 =>
      cases h5 with
      | cons h6 h7 =>
        cases h7
        cases h4 with
        | arr h4 =>
          cases h4 with
          | cons h8 h9 =>
            cases h8
            cases h9
            cases h6 with
            | lit _ h6 =>
              rcases h6 with h6 | ⟨_, h6⟩
              · cases h6
              · rw [Except.ok.inj (hv.symm.trans h6)]
            | hex h6 _ => cases h6

example : ∃ doc, removeEncryption .wrap toyCodecs sampleCrypto [] (sampleEncrypted sampleUnfiltered) = .ok doc ∧
    doc.file.isEncrypted = false :=
  let ⟨doc, h⟩ := sampleRemoved.2.1
  ⟨doc, h, (C86_document rfl h).1⟩

set_option maxRecDepth 100000 in
example : ∃ doc t d d' b, removeEncryption .wrap toyCodecs sampleCrypto [] (sampleEncrypted sampleUnfiltered) = .ok doc ∧
    doc.at 0 0 = some ⟨3, 0, some t⟩ ∧ EntriesReadAs sampleCrypto sampleAes 3 0 [] [(b! "Length", .other (.int 32))] d ∧
    savedTop .wrap toyCodecs sampleCrypto doc (fun _ _ => .error .missing) 3 0 [] [] [] t = .ok (.stream d' (b! "page 1")) ∧
    streamBody .wrap toyCodecs sampleCrypto sampleAes (sampleAesStream .absent (b! "page 1" ++ List.replicate 10 10)) 3 0 [] = .ok b := by
  obtain ⟨doc, h⟩ := sampleRemoved.2.1
  obtain ⟨t, d, d', b, h1, h2, h3, _, _, h4, _⟩ := C86_streams_partial (i := 0) (j := 0) rfl h rfl (body := b! "page 1") (by decide +kernel)
    (nofun) ⟨nofun, nofun⟩ rfl (resolve := fun _ _ => .error .missing) (l := 32) sampleEntries (.inl (.inl rfl)) [] []
  exact ⟨doc, t, d, d', b, h, h1, h2, h3, h4⟩

set_option maxRecDepth 100000 in
/-- The document with hexadecimal digits cannot be saved any more. -/
example : ∃ doc t, removeEncryption .wrap toyCodecs sampleCrypto [] (sampleEncrypted sampleDigits) = .ok doc ∧
    doc.at 0 0 = some ⟨3, 0, some t⟩ ∧
    savedTop .wrap toyCodecs sampleCrypto doc (fun _ _ => .error .missing) 3 0 [] [] [] t = .error .notSupported := by
  obtain ⟨doc, h⟩ := sampleRemoved.2.2
  obtain ⟨t, h1, h2⟩ := C86_save_counterexample (i := 0) (j := 0) rfl h rfl (body := b! "7061676531>") (by decide +kernel)
    (nofun) rfl (resolve := fun _ _ => .error .missing) (l := 32) sampleEntries (by decide) rfl (.inl rfl) [] []
  exact ⟨doc, t, h, h1, h2⟩

set_option maxRecDepth 100000 in
/-- The samples with a predictor were 2, 8, 7, 9; the saved file cannot be decoded. -/
example : ∃ doc t d', removeEncryption .wrap toyCodecs sampleCrypto [] (sampleEncrypted samplePredicted) = .ok doc ∧
    doc.at 0 0 = some ⟨3, 0, some t⟩ ∧
    streamBody .wrap toyCodecs sampleCrypto sampleAes
      (sampleAesStream (.one ⟨.flate, { predictor := 12, columns := 2 }, none⟩) ([1, 2, 2, 8, 2, 5, 1] ++ List.replicate 9 9)) 3 0 [] =
      .ok [2, 8, 7, 9] ∧
    savedTop .wrap toyCodecs sampleCrypto doc (fun _ _ => .error .missing) 3 0 [] [] [] t = .ok (.stream d' [1, 2, 8, 7, 9]) ∧
    LengthIs (fun _ _ => .error .missing) d' 7 ∧
    streamBody .wrap toyCodecs sampleCrypto doc.file
      ⟨.one ⟨.flate, { predictor := 12, columns := 2 }, none⟩, [1, 2, 8, 7, 9], none, none, false, false⟩ 3 0 [] ≠ .ok [2, 8, 7, 9] := by
  obtain ⟨doc, h⟩ := sampleRemoved.1
  obtain ⟨t, d', b, h1, h2, h3, h4, h5⟩ := C86_flate_counterexample (c := toyCodecs) (fun _ => rfl) (i := 0) (j := 0) rfl h rfl
    (body := [1, 2, 2, 8, 2, 5, 1]) (by decide +kernel)
    (nofun) rfl (resolve := fun _ _ => .error .missing) (l := 32) sampleEntries (by decide) rfl rfl [] []
  have hb : streamBody .wrap toyCodecs sampleCrypto sampleAes
      (sampleAesStream (.one ⟨.flate, { predictor := 12, columns := 2 }, none⟩) ([1, 2, 2, 8, 2, 5, 1] ++ List.replicate 9 9)) 3 0 [] =
      .ok [2, 8, 7, 9] := by decide +kernel
  cases Except.ok.inj (hb.symm.trans h2)
  refine ⟨doc, t, d', h, h1, hb, h3, h4, ?_⟩
  intro hx
  exact absurd (h5.symm.trans hx) (by decide +kernel)

set_option maxRecDepth 100000 in
example : ∃ e, removeEncryption .wrap toyCodecs sampleCrypto [] (sampleEncrypted (.stream [(b! "Length", .other (.int 32))]
    (sampleAesStream (.one ⟨.other, {}, none⟩) (b! "page 1" ++ List.replicate 10 10)))) = .error e :=
  C86_undecodable_counterexample _ _ _ _ (i := 0) (j := 0) rfl rfl rfl rfl (.inr rfl)

end VPdf
