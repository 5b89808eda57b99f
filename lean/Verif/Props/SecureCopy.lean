import Verif.Lemmas.SecureCopy

/-! # Copying objects between documents that may be encrypted (C117) -/
namespace VPdf
open Spec (Lawful ReadAs EntriesReadAs SameBut Uniform UniformEntries SecHolds GoodDoc StableLengths Faithful SameObject DocHolds
  dropNulls dropNullsEntries valueAt enciphered SortedKeys CachesAgree CopiedAs CopiedEntries Renumbered)

section Copying

variable {k : Crypto} {F : SecureFile} {rnd : Bytes} {m : List (ObjRef × ObjRef)} {src : ObjRef → SecTop} {dst doc : SecDoc}
  {q c : ObjRef}

/-- The copy of an object that is no stream. -/
theorem adopted_direct (h : adoptInto k F rnd m src dst = .ok doc) (hq : (q, c) ∈ m) {o : SecObj} (ho : src q = .direct o) :
    ∃ x, forceObj k F q.1 q.2 rnd o = .ok x ∧ SecHolds doc.sections c.1 c.2 (.direct (relinkObj (newReference m) x)) := by
  obtain ⟨_, _, t, h1, h2⟩ := adoptInto_holds h hq
  rw [ho] at h1
  obtain ⟨x, h3, h1⟩ := except_bind_ok h1
  cases Except.ok.inj h1
  exact ⟨x, h3, h2⟩

/-- The copy of a stream. -/
theorem adopted_stream (h : adoptInto k F rnd m src dst = .ok doc) (hq : (q, c) ∈ m) {entries : List (Bytes × SecObj)}
    {s : StreamState} (ho : src q = .stream entries s) :
    ∃ x, forceEntries k F q.1 q.2 rnd entries = .ok x ∧
      SecHolds doc.sections c.1 c.2 (.stream (relinkEntries (newReference m) x) { s with dirty := true }) := by
  obtain ⟨_, _, t, h1, h2⟩ := adoptInto_holds h hq
  rw [ho] at h1
  obtain ⟨x, h3, h1⟩ := except_bind_ok h1
  cases Except.ok.inj h1
  exact ⟨x, h3, h2⟩

/-- **C117**, objects that are no streams: whatever the encryption of the two documents, the API reads from the copy the strings
and values that it reads from the original; references lead to the copies. -/
theorem C117_objects (h : adoptInto k F rnd m src dst = .ok doc) (hq : (q, c) ∈ m) {o : SecObj} (ho : src q = .direct o) :
    ∃ before after o', ReadAs k F q.1 q.2 rnd o before ∧ CopiedAs (Renumbered m) before after ∧
      SecHolds doc.sections c.1 c.2 (.direct o') ∧ ∀ r' w, ReadAs k doc.file c.1 c.2 r' o' w ↔ w = after := by
  obtain ⟨x, h1, h2⟩ := adopted_direct h hq ho
  obtain ⟨v, h3, _⟩ := copy_reads (G := F) (n' := 0) (g' := 0) (r' := []) (newReference m) h1
  refine ⟨v, _, _, h3, mapRefs_copied m v, h2, ?_⟩
  intro r' w
  obtain ⟨v', h4, h5⟩ := copy_reads (G := doc.file) (n' := c.1) (g' := c.2) (r' := r') (newReference m) h1
  rw [h5, h3.unique h4]

/-- **C117**, the rest of the destination: objects that have none of the new numbers are what they were before. -/
theorem C117_destination (h : adoptInto k F rnd m src dst = .ok doc) {n g : Nat} (hm : (n, g) ∉ m.map (·.2)) (t : SecTop) :
    SecHolds doc.sections n g t ↔ SecHolds dst.sections n g t := adoptInto_others h hm t

/-- **C117**, the dictionaries of streams, in the same way. -/
theorem C117_stream_entries (h : adoptInto k F rnd m src dst = .ok doc) (hq : (q, c) ∈ m) {entries : List (Bytes × SecObj)}
    {s : StreamState} (ho : src q = .stream entries s) :
    ∃ before after entries' s', EntriesReadAs k F q.1 q.2 rnd entries before ∧ CopiedEntries (Renumbered m) before after ∧
      SecHolds doc.sections c.1 c.2 (.stream entries' s') ∧ s'.raw = s.raw ∧ s'.filter = s.filter ∧
      ∀ r' w, EntriesReadAs k doc.file c.1 c.2 r' entries' w ↔ w = after := by
  obtain ⟨x, h1, h2⟩ := adopted_stream h hq ho
  obtain ⟨v, h3, _⟩ := copyEntries_reads (G := F) (n' := 0) (g' := 0) (r' := []) (newReference m) h1
  refine ⟨v, _, _, _, h3, mapRefs_copiedEntries m v, h2, rfl, rfl, ?_⟩
  intro r' w
  obtain ⟨v', h4, h5⟩ := copyEntries_reads (G := doc.file) (n' := c.1) (g' := c.2) (r' := r') (newReference m) h1
  rw [h5, h3.unique h4]

/-- **C117**, the data of streams when neither document is encrypted: they are read from the copy as from the original. -/
theorem C117_plain_streams (h : adoptInto k F rnd m src dst = .ok doc) (hq : (q, c) ∈ m) {entries : List (Bytes × SecObj)}
    {s : StreamState} (ho : src q = .stream entries s) (hF : F.dict = none) (hd : dst.file.dict = none) :
    ∃ entries' s', SecHolds doc.sections c.1 c.2 (.stream entries' s') ∧
      ∀ ov cs r', streamBody ov cs k doc.file s' c.1 c.2 r' = streamBody ov cs k F s q.1 q.2 rnd := by
  obtain ⟨x, _, h2⟩ := adopted_stream h hq ho
  have h3 : doc.file.dict = none := by rw [(adoptInto_holds h hq).1]; exact hd
  refine ⟨_, _, h2, ?_⟩
  intro ov cs r'
  have : bodyDecrypted k doc.file { s with dirty := true } c.1 c.2 r' = bodyDecrypted k F s q.1 q.2 rnd := by
    unfold bodyDecrypted
    simp only [SecureFile.isEncrypted, h3, hF, Option.isSome_none, Bool.not_false, Bool.or_true, if_true]
  unfold streamBody
  rw [this]

/-- **C117**, the data of streams that were decoded before: they are read from the copy as from the original, whatever the
encryption of the two documents.  Missing: streams whose data nobody has asked for, see the counterexamples. -/
theorem C117_decoded_streams_partial (h : adoptInto k F rnd m src dst = .ok doc) (hq : (q, c) ∈ m)
    {entries : List (Bytes × SecObj)} {s : StreamState} (ho : src q = .stream entries s) {body : Bytes}
    (hb : s.decoded = some body) :
    (∀ ov cs, streamBody ov cs k F s q.1 q.2 rnd = .ok body) ∧ ∃ entries' s', SecHolds doc.sections c.1 c.2 (.stream entries' s') ∧
      ∀ ov cs r', streamBody ov cs k doc.file s' c.1 c.2 r' = .ok body := by
  obtain ⟨x, _, h2⟩ := adopted_stream h hq ho
  refine ⟨?_, _, _, h2, ?_⟩
  · intro ov cs; unfold streamBody; rw [hb]
  · intro ov cs r'; unfold streamBody; dsimp only; rw [hb]

/-- **C117** fails for streams of encrypted documents (RC4) that were not looked at, when they are copied to a document that is not
encrypted: the original reads `body`, the copy reads its cipher. -/
theorem C117_encrypted_source_counterexample (hk : Lawful k) (h : adoptInto k F rnd m src dst = .ok doc) (hq : (q, c) ∈ m)
    {entries : List (Bytes × SecObj)} {s : StreamState} (ho : src q = .stream entries s) (hf : s.filter = .absent)
    (hs : s.decrypted = none) (hb : s.decoded = none) (hx : s.exempt = false) {d : EncDict} {key : Bytes} (hF : F.dict = some d)
    (hkey : fileKey k F d rnd = .ok key) {alg : Algorithm} (ha : defaultAlgorithm d d.streamFilter = .ok alg) (hna : alg ≠ .aes)
    (hq1 : d.entry ≠ some q) (hent : F.entry q.1 q.2 = some false) (hd : dst.file.dict = none) {body : Bytes}
    (hl : body.length < 2147483647) (hr : s.raw = enciphered k key q.1 q.2 body) :
    (∀ ov cs, streamBody ov cs k F s q.1 q.2 rnd = .ok body) ∧ ∃ entries' s', SecHolds doc.sections c.1 c.2 (.stream entries' s') ∧
      ∀ ov cs r', streamBody ov cs k doc.file s' c.1 c.2 r' = .ok (enciphered k key q.1 q.2 body) := by
  obtain ⟨x, _, h2⟩ := adopted_stream h hq ho
  have h3 : doc.file.dict = none := by rw [(adoptInto_holds h hq).1]; exact hd
  refine ⟨?_, _, _, h2, ?_⟩
  · intro ov cs
    unfold streamBody bodyDecrypted
    simp only [hb, hs, hx, hf, SecureFile.isEncrypted, hF, Option.isSome_some, Bool.not_true, Bool.or_self, Bool.false_eq_true,
      if_false]
    rw [rc4_stream hF hkey ha hna hq1 hent (by rw [hr, enciphered_length hk]; exact hl), hr, enciphered_twice hk]
    rfl
  · intro ov cs r'
    unfold streamBody bodyDecrypted
    simp only [hb, hs, hf, SecureFile.isEncrypted, h3, Option.isSome_none, Bool.not_false, Bool.or_true, if_true, hr]
    rfl

/-- **C117** fails for streams that were not looked at, when they are copied to an encrypted document (RC4): the copy reads the
stored bytes enciphered with the key of the destination, whether the source is encrypted or not. -/
theorem C117_encrypted_target_counterexample (h : adoptInto k F rnd m src dst = .ok doc) (hq : (q, c) ∈ m)
    {entries : List (Bytes × SecObj)} {s : StreamState} (ho : src q = .stream entries s) (hf : s.filter = .absent)
    (hs : s.decrypted = none) (hb : s.decoded = none) (hx : s.exempt = false) {d : EncDict} {key : Bytes} (hF : dst.file.dict = some d)
    (hkey : ∀ r, fileKey k dst.file d r = .ok key) {alg : Algorithm} (ha : defaultAlgorithm d d.streamFilter = .ok alg)
    (hna : alg ≠ .aes) (hc : d.entry ≠ some c) (hl : s.raw.length < 2147483647) :
    (F.dict = none → ∀ ov cs, streamBody ov cs k F s q.1 q.2 rnd = .ok s.raw) ∧
    ∃ entries' s', SecHolds doc.sections c.1 c.2 (.stream entries' s') ∧
      ∀ ov cs r', streamBody ov cs k doc.file s' c.1 c.2 r' = .ok (enciphered k key c.1 c.2 s.raw) := by
  obtain ⟨x, _, h2⟩ := adopted_stream h hq ho
  have h3 := (adoptInto_holds h hq).1
  have h4 : doc.file.dict = some d := by rw [h3]; exact hF
  refine ⟨?_, _, _, h2, ?_⟩
  · intro hF ov cs
    unfold streamBody bodyDecrypted
    simp only [hb, hs, hf, SecureFile.isEncrypted, hF, Option.isSome_none, Bool.not_false, Bool.or_true, if_true]
    rfl
  · intro ov cs r'
    unfold streamBody bodyDecrypted
    simp only [hb, hs, hx, hf, SecureFile.isEncrypted, h4, Option.isSome_some, Bool.not_true, Bool.or_self, Bool.false_eq_true,
      if_false]
    rw [rc4_stream h4 (by rw [h3]; exact hkey r') ha hna hc (by
      rw [h3]; exact if_pos (List.mem_map.mpr ⟨_, hq, rfl⟩)) hl]
    rfl

end Copying

/-! ### Saving the destination -/

/-- The document `doc`, encrypted or not, is saved to `file`; `ss` is what its objects look like there. -/
structure WrittenOut (ov : Overflow) (cs : Codecs) (k : Crypto) (codec : Codec) (v : PdfVersion) (doc : SecDoc)
    (owns : List (Option (Nat × Nat))) (resolve : Nat → Nat → Res Int) (rnd iv iv' : Bytes) (ss : List WSection) (file : Bytes) :
    Prop where
  faithful : Faithful codec
  texts : secureSections ov cs k doc resolve rnd iv iv' owns doc.sections = .ok ss
  nonempty : ss ≠ []
  good : GoodDoc ss
  lengths : StableLengths ss
  saved : saveProtected ov cs k codec v doc owns resolve rnd iv iv' = .ok file
  size : file.length ≤ 9223372036854775807

section Saving

variable {ov : Overflow} {cs : Codecs} {k : Crypto} {codec : Codec} {v : PdfVersion} {doc dst : SecDoc} {F F' : SecureFile}
  {owns : List (Option (Nat × Nat))} {resolve : Nat → Nat → Res Int} {rnd rnd' iv iv' : Bytes} {ss : List WSection} {file : Bytes}
  {d : EncDict} {key : Bytes} {m : List (ObjRef × ObjRef)} {src : ObjRef → SecTop} {q c : ObjRef}

/-- What is loaded for an object of the document. -/
theorem WrittenOut.loads (h : WrittenOut ov cs k codec v doc owns resolve rnd iv iv' ss file) {n g : Nat} {t : SecTop}
    (ht : SecHolds doc.sections n g t) (hown : some (n, g) ∉ owns) :
    ∃ xs o, openFile codec file = .ok (v, xs) ∧ savedTop ov cs k doc resolve n g rnd iv iv' t = .ok o ∧
      ∀ f, ∃ o', loadObject file xs (f + 2) n g = .ok o' ∧ SameObject o o' := by
  have h1 := h.saved
  unfold saveProtected at h1
  rw [h.texts, ok_bind] at h1
  obtain ⟨o, h2, h3⟩ := secureSections_holds ht hown h.texts
  obtain ⟨xs, h4, _, h5, _⟩ := C32_saved_document_partial codec h.faithful v ss file h.nonempty h.good h.lengths h1 h.size
  refine ⟨xs, o, h4, h2, fun f => ?_⟩
  obtain ⟨o', h6, h7, _⟩ := h5 n g o h3 f
  exact ⟨o', h6, h7⟩

/-- **C117**, a destination that is not encrypted is saved: the file has the copies with the strings in clear, as the API reads
them from the original. -/
theorem C117_saved_plain_objects (h : adoptInto k F rnd' m src dst = .ok doc) (hd : dst.file.dict = none)
    (hw : WrittenOut ov cs k codec v doc owns resolve rnd iv iv' ss file) (hq : (q, c) ∈ m) (hown : some c ∉ owns) {o : SecObj}
    (ho : src q = .direct o) :
    ∃ xs before after, openFile codec file = .ok (v, xs) ∧ ReadAs k F q.1 q.2 rnd' o before ∧
      CopiedAs (Renumbered m) before after ∧ ∀ f, loadObject file xs (f + 2) c.1 c.2 = .ok (.direct (dropNulls after)) := by
  obtain ⟨before, after, o', h1, h2, h3, h4⟩ := C117_objects h hq ho
  have h5 : doc.file.dict = none := by rw [(adoptInto_holds h hq).1]; exact hd
  obtain ⟨xs, w, h6, h7, h8⟩ := hw.loads h3 hown
  obtain ⟨w', h9, h7⟩ := except_bind_ok h7
  cases Except.ok.inj h7
  have h10 := savedObj_readAs h5 h9
  cases (h4 _ _).mp h10
  refine ⟨xs, before, _, h6, h1, h2, ?_⟩
  intro f
  obtain ⟨l, h11, h12⟩ := h8 f
  cases h12
  exact h11

/-- **C117**, an encrypted destination (RC4) is saved: in the file the strings of the copies are enciphered with its key, and they
read as those of the original.  Missing: AES (see C115), objects out of object streams (`exempt`, see the counterexample). -/
theorem C117_saved_objects_partial (h : adoptInto k F rnd' m src dst = .ok doc)
    (hw : Resaved ov cs k codec v doc owns resolve rnd iv iv' ss file F' d key) {alg : Algorithm}
    (ha : defaultAlgorithm d d.stringFilter = .ok alg) (hna : alg ≠ .aes) {xs : List (List XEntry × Dict)}
    (hx : openFile codec file = .ok (v, xs)) (hq : (q, c) ∈ m) (hown : some c ∉ owns) {o : SecObj} (ho : src q = .direct o)
    (hu : Uniform false o) (hc0 : c.1 ≠ 0) (hc : d.entry ≠ some c) (hent : F'.entry c.1 c.2 = some false) (r' : Bytes) (f : Nat) :
    ∃ before after loaded, ReadAs k F q.1 q.2 rnd' o before ∧ CopiedAs (Renumbered m) before after ∧
      loadObject file xs (f + 2) c.1 c.2 = .ok (.direct loaded) ∧
      SameBut (fun stored value => stored = enciphered k key c.1 c.2 value ∧ stringRead k F' false c.1 c.2 r' stored = .ok value)
        loaded (dropNulls after) := by
  obtain ⟨x, h1, h2⟩ := adopted_direct h hq ho
  obtain ⟨before, h3, h4⟩ := copy_reads (G := doc.file) (n' := c.1) (g' := c.2) (r' := rnd) (newReference m) h1
  obtain ⟨w, val, h5, h6, h7⟩ := C115_objects_partial hw ha hna hx h2 hown (copy_uniform _ hu h1) hc0 hent r' f
  cases (h4 _).mp h6
  refine ⟨before, _, w, h3, mapRefs_copied m before, h5, h7.mono ?_⟩
  rintro st val ⟨h8, h9⟩
  rw [if_neg (by rintro (h | h); exacts [Bool.noConfusion h, hc h])] at h8
  exact ⟨h8, h9⟩

/-- **C117** fails for objects that come out of object streams of the source: their copies keep the exemption from encryption, and
so their strings are written in clear to the encrypted destination, and the reader of the file deciphers them nevertheless. -/
theorem C117_compressed_counterexample (h : adoptInto k F rnd' m src dst = .ok doc)
    (hw : Resaved ov cs k codec v doc owns resolve rnd iv iv' ss file F' d key) {alg : Algorithm}
    (ha : defaultAlgorithm d d.stringFilter = .ok alg) (hna : alg ≠ .aes) {xs : List (List XEntry × Dict)}
    (hx : openFile codec file = .ok (v, xs)) (hq : (q, c) ∈ m) (hown : some c ∉ owns) {o : SecObj} (ho : src q = .direct o)
    (hu : Uniform true o) (hc0 : c.1 ≠ 0) (hc : d.entry ≠ some c) (hent : F'.entry c.1 c.2 = some false) (r' : Bytes) (f : Nat) :
    ∃ before after loaded, ReadAs k F q.1 q.2 rnd' o before ∧ CopiedAs (Renumbered m) before after ∧
      loadObject file xs (f + 2) c.1 c.2 = .ok (.direct loaded) ∧
      SameBut (fun stored value => stored = value ∧ (value.length < 2147483647 →
        stringRead k F' false c.1 c.2 r' stored = .ok (enciphered k key c.1 c.2 value))) loaded (dropNulls after) := by
  obtain ⟨x, h1, h2⟩ := adopted_direct h hq ho
  obtain ⟨before, h3, h4⟩ := copy_reads (G := doc.file) (n' := c.1) (g' := c.2) (r' := rnd) (newReference m) h1
  obtain ⟨w, val, h5, h6, h7⟩ := C115_objects_partial hw ha hna hx h2 hown (copy_uniform _ hu h1) hc0 hent r' f
  cases (h4 _).mp h6
  refine ⟨before, _, w, h3, mapRefs_copied m before, h5, h7.mono ?_⟩
  rintro st val ⟨h8, _⟩
  rw [if_pos (.inl rfl)] at h8
  subst h8
  exact ⟨rfl, fun hl => rc4_clear hw.reopened.read hw.reopened.readKey ha hna hc hent r' hl⟩

/-- **C117**, an encrypted destination (RC4) with the copy of a stream that was decoded before and has at most one filter is saved:
the data, encoded by the filter, are read from the file.  Missing: AES, arrays of filters, crypt filters, streams whose data nobody
has asked for. -/
theorem C117_saved_streams_partial (h : adoptInto k F rnd' m src dst = .ok doc)
    (hw : Resaved ov cs k codec v doc owns resolve rnd iv iv' ss file F' d key) {alg alg' : Algorithm}
    (ha : defaultAlgorithm d d.stringFilter = .ok alg) (hna : alg ≠ .aes) (ha' : defaultAlgorithm d d.streamFilter = .ok alg')
    (hna' : alg' ≠ .aes) {xs : List (List XEntry × Dict)} (hx : openFile codec file = .ok (v, xs)) (hq : (q, c) ∈ m)
    (hown : some c ∉ owns) {entries : List (Bytes × SecObj)} {s : StreamState} (ho : src q = .stream entries s)
    (hu : UniformEntries false entries) (hc0 : c.1 ≠ 0) (hent : F'.entry c.1 c.2 = some false) (hc : usesCrypt s.filter = false)
    (hm : ∀ us, s.filter ≠ .many us) {body encoded : Bytes} (hb : s.decoded = some body)
    (he : encodedWith cs s.filter body = .ok encoded) (hlen : encoded.length + 32 < 2147483647) (hi' : iv'.length = 16)
    (hh : ∀ dd, EntriesReadAs k F q.1 q.2 rnd' entries dd → SortedKeys dd) (r' : Bytes) (f : Nat) :
    ∃ before after loaded stored, EntriesReadAs k F q.1 q.2 rnd' entries before ∧ CopiedEntries (Renumbered m) before after ∧
      loadObject file xs (f + 2) c.1 c.2 = .ok (.stream loaded stored) ∧ HeaderReads k F' false c.1 c.2 r' loaded after ∧
      bodyDecrypted k F' (reloaded s stored) c.1 c.2 r' = .ok encoded := by
  obtain ⟨x, h1, h2⟩ := adopted_stream h hq ho
  obtain ⟨before, h3, h4⟩ := copyEntries_reads (G := doc.file) (n' := c.1) (g' := c.2) (r' := rnd) (newReference m) h1
  obtain ⟨loaded, after, stored, h5, h6, h7, h8⟩ := C115_changed_streams_partial hw ha hna ha' hna' hx h2 hown
    (copyEntries_uniform _ hu h1) hc0 hent hc hm rfl hb he hlen hi' (by
      intro dd hdd
      rw [(h4 _).mp hdd]
      exact mapRefsEntries_sorted _ (hh _ h3)) r' f
  cases (h4 _).mp h6
  exact ⟨before, _, loaded, stored, h3, mapRefs_copiedEntries m before, h5, h7, h8⟩

/-- **C117** fails for streams that were not looked at, also in the file: when the destination is not encrypted, the file has the
bytes as they were stored in the source, enciphered if the source is encrypted. -/
theorem C117_saved_source_counterexample (h : adoptInto k F rnd' m src dst = .ok doc) (hd : dst.file.dict = none)
    (hdirty : dst.encryptionDirty = false) (hw : WrittenOut ov cs k codec v doc owns resolve rnd iv iv' ss file) (hq : (q, c) ∈ m)
    (hown : some c ∉ owns) {entries : List (Bytes × SecObj)} {s : StreamState} (ho : src q = .stream entries s)
    (hb : s.decoded = none) :
    ∃ xs, openFile codec file = .ok (v, xs) ∧ ∀ f, ∃ loaded, loadObject file xs (f + 2) c.1 c.2 = .ok (.stream loaded s.raw) := by
  obtain ⟨x, _, h2⟩ := adopted_stream h hq ho
  have h3 : doc.file.dict = none := by rw [(adoptInto_holds h hq).1]; exact hd
  have h4 : doc.encryptionDirty = false := (adoptInto_holds h hq).2.1.trans hdirty
  obtain ⟨xs, o, h5, h6, h7⟩ := hw.loads h2 hown
  unfold savedTop at h6
  obtain ⟨dd, _, h6⟩ := except_bind_ok h6
  unfold saveStream at h6
  obtain ⟨measured, _, h6⟩ := except_bind_ok h6
  obtain ⟨ch, _, h6⟩ := except_bind_ok h6
  obtain ⟨d1, _, h6⟩ := except_bind_ok h6
  obtain ⟨stored, h8, h6⟩ := except_bind_ok h6
  cases Except.ok.inj h6
  unfold bodyEncoded at h8
  rw [if_pos (by simp [SecureFile.isEncrypted, h3, h4, hb])] at h8
  cases Except.ok.inj h8
  refine ⟨xs, h5, fun f => ?_⟩
  obtain ⟨o', h9, h10⟩ := h7 f
  cases h10 with
  | stream _ d' _ _ => exact ⟨d', h9⟩

/-- **C117** fails for streams that were not looked at, also in the file: when the destination is encrypted with RC4, the file has
the bytes as they were stored in the source, which are in clear if the source is not encrypted, and the reader of the file
deciphers them. -/
theorem C117_saved_target_counterexample (h : adoptInto k F rnd' m src dst = .ok doc)
    (hw : Resaved ov cs k codec v doc owns resolve rnd iv iv' ss file F' d key) {alg : Algorithm}
    (ha : defaultAlgorithm d d.streamFilter = .ok alg) (hna : alg ≠ .aes) {xs : List (List XEntry × Dict)}
    (hx : openFile codec file = .ok (v, xs)) (hq : (q, c) ∈ m) (hown : some c ∉ owns) {entries : List (Bytes × SecObj)}
    {s : StreamState} (ho : src q = .stream entries s) (hf : s.filter = .absent) (hs : s.decrypted = none) (hb : s.decoded = none)
    (he : s.exempt = false) (hc0 : c.1 ≠ 0) (hc : d.entry ≠ some c) (hent : F'.entry c.1 c.2 = some false)
    (hl : s.raw.length < 2147483647) (r' : Bytes) (f : Nat) :
    ∃ loaded, loadObject file xs (f + 2) c.1 c.2 = .ok (.stream loaded s.raw) ∧
      streamBody ov cs k F' (reloaded s s.raw) c.1 c.2 r' = .ok (enciphered k key c.1 c.2 s.raw) := by
  obtain ⟨x, _, h2⟩ := adopted_stream h hq ho
  have hfile := (adoptInto_holds h hq).1
  have hent' : doc.file.entry c.1 c.2 = some false := by
    rw [hfile]; exact if_pos (List.mem_map.mpr ⟨_, hq, rfl⟩)
  obtain ⟨t, o', h5, h6, h7⟩ := hw.loads hx h2 hown f
  unfold savedTop at h5
  obtain ⟨dd, _, h5⟩ := except_bind_ok h5
  unfold saveStream at h5
  obtain ⟨measured, _, h5⟩ := except_bind_ok h5
  obtain ⟨ch, _, h5⟩ := except_bind_ok h5
  obtain ⟨d1, _, h5⟩ := except_bind_ok h5
  obtain ⟨stored, h8, h5⟩ := except_bind_ok h5
  cases Except.ok.inj h5
  have h9 : stored = s.raw := by
    unfold bodyEncoded at h8
    rw [if_neg (by simp [SecureFile.isEncrypted, hw.reopened.written]), if_neg (by simp)] at h8
    obtain ⟨b, h9, h8⟩ := except_bind_ok h8
    unfold streamBody bodyDecrypted at h9
    simp only [hb, hs, he, hf, SecureFile.isEncrypted, hw.reopened.written, Option.isSome_some, Bool.not_true, Bool.or_self,
      Bool.false_eq_true, if_false] at h9
    rw [rc4_stream hw.reopened.written (hw.reopened.writtenKey _) ha hna hc hent' hl] at h9
    cases Except.ok.inj h9
    simp only [hf, streamEncrypt, he, SecureFile.isEncrypted, hw.reopened.written, Option.isSome_some, Bool.not_true, Bool.or_self,
      Bool.false_eq_true, if_false] at h8
    unfold encryptStream at h8
    rw [hw.reopened.written] at h8
    dsimp only at h8
    rw [ha, ok_bind] at h8
    rw [rc4_encrypted hw.reopened.written (hw.reopened.writtenKey _) hna hc0 h8, if_neg hc, enciphered_twice hw.lawful]
  subst h9
  cases h7 with
  | stream _ d' _ _ =>
    refine ⟨d', h6, ?_⟩
    unfold streamBody bodyDecrypted reloaded
    simp only [he, hf, SecureFile.isEncrypted, hw.reopened.read, Option.isSome_some, Bool.not_true, Bool.or_self,
      Bool.false_eq_true, if_false]
    rw [rc4_stream hw.reopened.read (hw.reopened.readKey _) ha hna hc hent hl]
    rfl

end Saving

/-! ### Cases that meet the hypotheses -/

/-- A document with a dictionary, a stream that was not looked at, one that was decoded, and an object out of an object stream. -/
def easySource : ObjRef → SecTop := fun r =>
  if r = (1, 0) then .direct (.dict [(b! "Next", .other (.ref 2 0)), (b! "Title", .str ⟨false, b! "BAC", none, false⟩)])
  else if r = (2, 0) then .stream [(b! "Length", .other (.int 5))] easyStream
  else if r = (3, 0) then .stream [(b! "Length", .other (.int 9))] ⟨.absent, b! "nlqf#gbwb", some (b! "more data"), some (b! "more data"), false, false⟩
  else .direct (.arr [.str ⟨false, b! "abc", none, true⟩])

/-- The numbers of its objects and of their copies. -/
def easyNumbers : List (ObjRef × ObjRef) := [((1, 0), (4, 0)), ((2, 0), (5, 0)), ((3, 0), (6, 0)), ((4, 0), (7, 0))]

/-- The encrypted destination `easyDoc` with the copies. -/
def easyAdopted : SecDoc where
  file := (sampleSecure none 2).adopt easyNumbers
  encryptionDirty := false
  sections := [⟨[(b! "Encrypt", .ref 9 0), (b! "Root", .ref 1 0)],
    [⟨0, 65535, none⟩, ⟨1, 0, some (.direct (.dict [(b! "Title", .str ⟨false, b! "BAC", none, false⟩)]))⟩,
    ⟨2, 0, some (.stream [(b! "Length", .other (.int 5))] easyStream)⟩,
    ⟨3, 0, some (.stream [(b! "Length", .other (.int 5))] easyChanged)⟩,
    ⟨4, 0, some (.direct (.dict [(b! "Next", .other (.ref 5 0)), (b! "Title", .str ⟨false, b! "BAC", some (b! "AB@"), false⟩)]))⟩,
    ⟨5, 0, some (.stream [(b! "Length", .other (.int 5))] { easyStream with dirty := true })⟩,
    ⟨6, 0, some (.stream [(b! "Length", .other (.int 9))] ⟨.absent, b! "nlqf#gbwb", some (b! "more data"), some (b! "more data"), true, false⟩)⟩,
    ⟨7, 0, some (.direct (.arr [.str ⟨false, b! "abc", some (b! "abc"), true⟩]))⟩]⟩]

theorem easyAdopted_ok : adoptInto easyCrypto (sampleSecure none 2) [] easyNumbers easySource easyDoc = .ok easyAdopted := by rfl

/-- What is saved: the string of object 7 is in clear. -/
def easyAdoptedSaved : List WSection :=
  [⟨none, [⟨0, 65535, .free 0⟩, ⟨1, 0, .used 0 (some (.direct (.dict [(b! "Title", .lit (b! "BAC"))])))⟩,
    ⟨2, 0, .used 0 (some (.stream [(b! "Length", .int 5)] (b! "kbmmj")))⟩,
    ⟨3, 0, .used 0 (some (.stream [(b! "Length", .int 9)] (b! "nlqf#gbwb")))⟩,
    ⟨4, 0, .used 0 (some (.direct (.dict [(b! "Next", .ref 5 0), (b! "Title", .lit (b! "BAC"))])))⟩,
    ⟨5, 0, .used 0 (some (.stream [(b! "Length", .int 5)] (b! "kbmmj")))⟩,
    ⟨6, 0, .used 0 (some (.stream [(b! "Length", .int 9)] (b! "nlqf#gbwb")))⟩,
    ⟨7, 0, .used 0 (some (.direct (.arr [.lit (b! "abc")])))⟩],
    [(b! "Encrypt", .ref 9 0), (b! "Root", .ref 1 0)]⟩]

theorem easyAdoptedSaved_good : GoodDoc easyAdoptedSaved := by
  refine ⟨?_, by intro s h; cases h; rfl⟩
  intro s hs
  cases List.mem_singleton.mp hs
  refine ⟨by decide, by decide, by decide, ?_, ?_, by intro n g h; cases h⟩
  · intro e he
    simp only [List.mem_cons, List.not_mem_nil, or_false] at he
    rcases he with rfl | rfl | rfl | rfl | rfl | rfl | rfl | rfl <;> dsimp only
    · rintro x ⟨⟩; exact .dict _ (by unfold SortedKeys; decide) (by intro x hx; simp at hx; subst hx; exact .lit _)
    · rintro x ⟨⟩; exact .dict _ (by unfold SortedKeys; decide) (by intro x hx; simp at hx; subst hx; exact .int _ (by decide) (by decide))
    · rintro x ⟨⟩; exact .dict _ (by unfold SortedKeys; decide) (by intro x hx; simp at hx; subst hx; exact .int _ (by decide) (by decide))
    · rintro x ⟨⟩
      refine .dict _ (by unfold SortedKeys; decide) ?_
      intro x hx
      simp only [List.mem_cons, List.not_mem_nil, or_false] at hx
      rcases hx with rfl | rfl
      · exact .ref _ _ (by decide) (by decide)
      · exact .lit _
    · rintro x ⟨⟩; exact .dict _ (by unfold SortedKeys; decide) (by intro x hx; simp at hx; subst hx; exact .int _ (by decide) (by decide))
    · rintro x ⟨⟩; exact .dict _ (by unfold SortedKeys; decide) (by intro x hx; simp at hx; subst hx; exact .int _ (by decide) (by decide))
    · rintro x ⟨⟩; exact .arr _ (by intro x hx; simp at hx; subst hx; exact .lit _)
  · refine .dict _ (by unfold SortedKeys; decide) ?_
    intro x hx
    simp only [List.mem_cons, List.not_mem_nil, or_false] at hx
    rcases hx with rfl | rfl <;> exact .ref _ _ (by decide) (by decide)

theorem easyAdopted_texts : secureSections .wrap toyCodecs easyCrypto easyAdopted noLengths [] (b! "fedcba9876543210")
    (b! "fedcba9876543210") [none] easyAdopted.sections = .ok easyAdoptedSaved := by rfl

/-- The hypotheses of the theorems on encrypted destinations hold of it. -/
theorem easyAdopted_resaved : Resaved .wrap toyCodecs easyCrypto plainCodec .v17 easyAdopted [none] noLengths []
    (b! "fedcba9876543210") (b! "fedcba9876543210") easyAdoptedSaved (bytesOf (saveFile plainCodec .v17 easyAdoptedSaved))
    (sampleSecure none 2) ((sampleSecure none 2).dict.get rfl) (b! "0123456789abcdef") where
  lawful := easyCrypto_lawful
  faithful := by intro d d' b x h _; cases h; rfl
  reopened := ⟨rfl, rfl, fun _ => rfl, fun _ => rfl⟩
  texts := easyAdopted_texts
  nonempty := by decide
  good := easyAdoptedSaved_good
  lengths := by intro s hs e he d body n g h1 h2 o h3; exact h3
  saved := by
    unfold saveProtected
    rw [easyAdopted_texts, ok_bind]
    exact bytesOf_ok (by decide +kernel)
  size := by decide +kernel

/-- So does the rest: `C117_objects`, `C117_saved_objects_partial`, `C117_compressed_counterexample`,
`C117_encrypted_target_counterexample`, `C117_saved_target_counterexample`, `C117_decoded_streams_partial`,
`C117_saved_streams_partial`. -/
example : ((1, 0), (4, 0)) ∈ easyNumbers ∧ ((2, 0), (5, 0)) ∈ easyNumbers ∧ ((3, 0), (6, 0)) ∈ easyNumbers ∧
    ((4, 0), (7, 0)) ∈ easyNumbers ∧
    Uniform false (.dict [(b! "Next", .other (.ref 2 0)), (b! "Title", .str ⟨false, b! "BAC", none, false⟩)]) ∧
    Uniform true (.arr [.str ⟨false, b! "abc", none, true⟩]) ∧
    UniformEntries false [(b! "Length", .other (.int 9))] ∧
    defaultAlgorithm ((sampleSecure none 2).dict.get rfl) (some (b! "StdCF")) = .ok .rc4 ∧
    (sampleSecure none 2).entry 7 0 = some false ∧ easyStream.decoded = none ∧ easyStream.decrypted = none ∧
    easyStream.filter = .absent ∧ easyStream.raw = enciphered easyCrypto (b! "0123456789abcdef") 2 0 (b! "hanni") :=
  ⟨by decide, by decide, by decide, by decide, .dict (.cons (.other trivial) (.cons (.str rfl) .nil)),
    .arr (.cons (.str rfl) .nil), .cons (.other trivial) .nil, by rfl, by rfl, rfl, rfl, rfl, by rfl⟩

/-- A destination that is not encrypted. -/
def easyPlain : SecDoc := ⟨freshFile, false, [⟨[(b! "Root", .ref 1 0)], [⟨0, 65535, none⟩, ⟨1, 0, some (.direct (.dict []))⟩]⟩]⟩

/-- The objects of an encrypted document copied to it. -/
def easyPlainAdopted : SecDoc where
  file := freshFile.adopt easyNumbers
  encryptionDirty := false
  sections := [⟨[(b! "Root", .ref 1 0)], [⟨0, 65535, none⟩, ⟨1, 0, some (.direct (.dict []))⟩,
    ⟨4, 0, some (.direct (.dict [(b! "Next", .other (.ref 5 0)), (b! "Title", .str ⟨false, b! "BAC", some (b! "AB@"), false⟩)]))⟩,
    ⟨5, 0, some (.stream [(b! "Length", .other (.int 5))] { easyStream with dirty := true })⟩,
    ⟨6, 0, some (.stream [(b! "Length", .other (.int 9))] ⟨.absent, b! "nlqf#gbwb", some (b! "more data"), some (b! "more data"), true, false⟩)⟩,
    ⟨7, 0, some (.direct (.arr [.str ⟨false, b! "abc", some (b! "abc"), true⟩]))⟩]⟩]

theorem easyPlainAdopted_ok : adoptInto easyCrypto (sampleSecure none 2) [] easyNumbers easySource easyPlain =
    .ok easyPlainAdopted := by rfl

/-- What is saved: stream 5 is still enciphered. -/
def easyPlainSaved : List WSection :=
  [⟨none, [⟨0, 65535, .free 0⟩, ⟨1, 0, .used 0 (some (.direct (.dict [])))⟩,
    ⟨4, 0, .used 0 (some (.direct (.dict [(b! "Next", .ref 5 0), (b! "Title", .lit (b! "AB@"))])))⟩,
    ⟨5, 0, .used 0 (some (.stream [(b! "Length", .int 5)] (b! "kbmmj")))⟩,
    ⟨6, 0, .used 0 (some (.stream [(b! "Length", .int 9)] (b! "more data")))⟩,
    ⟨7, 0, .used 0 (some (.direct (.arr [.lit (b! "abc")])))⟩], [(b! "Root", .ref 1 0)]⟩]

theorem easyPlainAdopted_texts : secureSections .wrap toyCodecs easyCrypto easyPlainAdopted noLengths [] [] [] [none]
    easyPlainAdopted.sections = .ok easyPlainSaved := by rfl

theorem easyPlainSaved_good : GoodDoc easyPlainSaved := by
  refine ⟨?_, by intro s h; cases h; rfl⟩
  intro s hs
  cases List.mem_singleton.mp hs
  refine ⟨by decide, by decide, by decide, ?_, ?_, by intro n g h; cases h⟩
  · intro e he
    simp only [List.mem_cons, List.not_mem_nil, or_false] at he
    rcases he with rfl | rfl | rfl | rfl | rfl | rfl <;> dsimp only
    · rintro x ⟨⟩; exact .dict _ (by unfold SortedKeys; decide) nofun
    · rintro x ⟨⟩
      refine .dict _ (by unfold SortedKeys; decide) ?_
      intro x hx
      simp only [List.mem_cons, List.not_mem_nil, or_false] at hx
      rcases hx with rfl | rfl
      · exact .ref _ _ (by decide) (by decide)
      · exact .lit _
    · rintro x ⟨⟩; exact .dict _ (by unfold SortedKeys; decide) (by intro x hx; simp at hx; subst hx; exact .int _ (by decide) (by decide))
    · rintro x ⟨⟩; exact .dict _ (by unfold SortedKeys; decide) (by intro x hx; simp at hx; subst hx; exact .int _ (by decide) (by decide))
    · rintro x ⟨⟩; exact .arr _ (by intro x hx; simp at hx; subst hx; exact .lit _)
  · exact .dict _ (by unfold SortedKeys; decide) (by intro x hx; simp at hx; subst hx; exact .ref _ _ (by decide) (by decide))

/-- The hypotheses of `C117_saved_plain_objects`, `C117_encrypted_source_counterexample`, `C117_saved_source_counterexample` and,
with the source not encrypted, of `C117_plain_streams`. -/
theorem easyPlainAdopted_written : WrittenOut .wrap toyCodecs easyCrypto plainCodec .v17 easyPlainAdopted [none] noLengths [] [] []
    easyPlainSaved (bytesOf (saveFile plainCodec .v17 easyPlainSaved)) where
  faithful := by intro d d' b x h _; cases h; rfl
  texts := easyPlainAdopted_texts
  nonempty := by decide
  good := easyPlainSaved_good
  lengths := by intro s hs e he d body n g h1 h2 o h3; exact h3
  saved := by
    unfold saveProtected
    rw [easyPlainAdopted_texts, ok_bind]
    exact bytesOf_ok (by decide +kernel)
  size := by decide +kernel

/-- A stream of an encrypted document reads differently after it was copied to a document that is not encrypted. -/
example : ∃ entries s, SecHolds easyPlainAdopted.sections 5 0 (.stream entries s) ∧
    streamBody .wrap toyCodecs easyCrypto (sampleSecure none 2) easyStream 2 0 [] = .ok (b! "hanni") ∧
    streamBody .wrap toyCodecs easyCrypto easyPlainAdopted.file s 5 0 [] = .ok (b! "kbmmj") := by
  obtain ⟨h1, es, s, h2, h3⟩ := C117_encrypted_source_counterexample (body := b! "hanni") (key := b! "0123456789abcdef")
    (alg := .rc4) easyCrypto_lawful easyPlainAdopted_ok (q := (2, 0)) (c := (5, 0)) (by decide) rfl rfl rfl rfl rfl rfl rfl rfl
    (by decide) (by decide) rfl rfl (by decide) rfl
  exact ⟨es, s, h2, h1 _ _, h3 _ _ _⟩

end VPdf
