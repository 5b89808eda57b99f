import Verif.Lemmas.SecureSave
import Verif.Props.RemoveEncryption
import Verif.Props.Incremental

/-! # Saving encrypted documents as a whole (C115) and incrementally (C116) -/
namespace VPdf
open Spec (Lawful ReadAs EntriesReadAs SameBut SameButEntries Uniform UniformEntries SecHolds ChangedIn GoodDoc GoodSection
  StableLengths Faithful Holdable LengthIs CachesAgree SameObject DocHolds dropNulls dropNullsEntries valueAt enciphered
  ModifiedDoc Changes SortedKeys)

theorem recalcLength_others {resolve : Nat → Nat → Res Int} {size : Nat} {d d' : Dict} (h : recalcLength resolve size d = .ok d')
    (hs : SortedKeys d) (q : Bytes) (hq : q ≠ b! "Length") :
    valueAt q (dropNullsEntries d') = valueAt q (dropNullsEntries d) := by
  rw [valueAt_eq, valueAt_eq]
  rw [recalcLength] at h
  cases hf : mapFind (b! "Length") d with
  | none =>
    rw [hf] at h
    injection h with h; subst h
    exact dropNullsEntries_congr hs (mapInsert_sorted hs) (by rw [mapInsert_find hs hf, if_neg hq])
  | some o =>
    rw [hf] at h
    dsimp only at h
    obtain ⟨i, _, h⟩ := except_bind_ok h
    by_cases hneg : i < 0
    · rw [if_pos hneg] at h; cases h
    · rw [if_neg hneg] at h
      have h : (if i = (size : Int) then Except.ok d else Except.ok (mapInsert (b! "Length") (.int size) (mapErase (b! "Length") d))) =
        Except.ok d' := h
      by_cases he : i = (size : Int)
      · rw [if_pos he] at h
        cases Except.ok.inj h
        rfl
      · rw [if_neg he] at h
        cases Except.ok.inj h
        have hsort : SortedKeys (mapErase (b! "Length") d) := List.Pairwise.filter _ hs
        exact dropNullsEntries_congr hs (mapInsert_sorted hsort) (by rw [replace_find hs, if_neg hq])

mutual

theorem Spec.SameBut.self {R : Bytes → Bytes → Prop} (hR : ∀ s, R s s) : ∀ o : Obj, SameBut R o o
  | .lit _ => .lit (hR _)
  | .hex _ => .hex (hR _)
  | .arr l => .arr (Spec.SameButItems.self hR l)
  | .dict l => .dict (Spec.SameButEntries.self hR l)
  | .null => .scalar trivial
  | .bool _ => .scalar trivial
  | .int _ => .scalar trivial
  | .real _ _ => .scalar trivial
  | .name _ => .scalar trivial
  | .ref _ _ => .scalar trivial

theorem Spec.SameButItems.self {R : Bytes → Bytes → Prop} (hR : ∀ s, R s s) : ∀ l : List Obj, Spec.SameButItems R l l
  | [] => .nil
  | o :: l => .cons (Spec.SameBut.self hR o) (Spec.SameButItems.self hR l)

theorem Spec.SameButEntries.self {R : Bytes → Bytes → Prop} (hR : ∀ s, R s s) : ∀ l : Dict, SameButEntries R l l
  | [] => .nil
  | (_, o) :: l => .cons (Spec.SameBut.self hR o) (Spec.SameButEntries.self hR l)

end

/-! ## C115 -/

/-- The encrypted document `doc` is saved to `file`; `ss` is what the objects look like in the file.  `F'` is the file when it
is opened again with the same key. -/
structure Resaved (m : Overflow) (c : Codecs) (k : Crypto) (codec : Codec) (v : PdfVersion) (doc : SecDoc)
    (owns : List (Option (Nat × Nat))) (resolve : Nat → Nat → Res Int) (rnd iv iv' : Bytes) (ss : List WSection) (file : Bytes)
    (F' : SecureFile) (d : EncDict) (key : Bytes) : Prop where
  lawful : Lawful k
  faithful : Faithful codec
  reopened : Reopened k doc.file F' d key
  texts : secureSections m c k doc resolve rnd iv iv' owns doc.sections = .ok ss
  nonempty : ss ≠ []
  good : GoodDoc ss
  lengths : StableLengths ss
  saved : saveProtected m c k codec v doc owns resolve rnd iv iv' = .ok file
  size : file.length ≤ 9223372036854775807

section Full

variable {m : Overflow} {c : Codecs} {k : Crypto} {codec : Codec} {v : PdfVersion} {doc : SecDoc}
  {owns : List (Option (Nat × Nat))} {resolve : Nat → Nat → Res Int} {rnd iv iv' : Bytes} {ss : List WSection} {file : Bytes}
  {F' : SecureFile} {d : EncDict} {key : Bytes}

theorem Resaved.whole (h : Resaved m c k codec v doc owns resolve rnd iv iv' ss file F' d key) :
    saveFile codec v ss = .ok file := by
  have h1 := h.saved
  unfold saveProtected at h1
  rw [h.texts, ok_bind] at h1
  exact h1

/-- What is loaded from the file for an object of the document. -/
theorem Resaved.loads (h : Resaved m c k codec v doc owns resolve rnd iv iv' ss file F' d key) {xs : List (List XEntry × Dict)}
    (hx : openFile codec file = .ok (v, xs)) {n g : Nat} {t : SecTop} (ht : SecHolds doc.sections n g t)
    (hown : some (n, g) ∉ owns) (f : Nat) :
    ∃ o o', savedTop m c k doc resolve n g rnd iv iv' t = .ok o ∧ loadObject file xs (f + 2) n g = .ok o' ∧ SameObject o o' := by
  obtain ⟨o, h1, h2⟩ := secureSections_holds ht hown h.texts
  obtain ⟨xs', h3, _, h4, _⟩ := C32_saved_document_partial codec h.faithful v ss file h.nonempty h.good h.lengths h.whole h.size
  cases Except.ok.inj (h3.symm.trans hx)
  obtain ⟨o', h5, h6, _⟩ := h4 n g o h2 f
  exact ⟨o, o', h1, h5, h6⟩

/-- **C115**, the document: the saved file can be opened, has as many sections, and its trailer refers to the encryption
dictionary as before. -/
theorem C115_document_partial (h : Resaved m c k codec v doc owns resolve rnd iv iv' ss file F' d key) :
    ∃ xs, openFile codec file = .ok (v, xs) ∧ xs.length = doc.sections.length ∧
      ∀ s x, doc.sections.head? = some s → xs.head? = some x →
        valueAt (b! "Encrypt") x.2 = valueAt (b! "Encrypt") (dropNullsEntries s.trailer) := by
  obtain ⟨xs, h1, h2, _, _, h5⟩ := C32_saved_document_partial codec h.faithful v ss file h.nonempty h.good h.lengths h.whole h.size
  have hlen : ∀ {secs : List SecSection} {os ss}, secureSections m c k doc resolve rnd iv iv' os secs = .ok ss →
      ss.length = secs.length ∧ ∀ s, secs.head? = some s → ∃ w, ss.head? = some w ∧ w.trailer = s.trailer := by
    intro secs
    induction secs with
    | nil => intro os ss h; cases Except.ok.inj h; exact ⟨rfl, nofun⟩
    | cons s secs ih =>
      intro os ss h
      unfold secureSections at h
      obtain ⟨es, _, h⟩ := except_bind_ok h
      obtain ⟨ss', h', h⟩ := except_bind_ok h
      cases Except.ok.inj h
      refine ⟨by rw [List.length_cons, List.length_cons, (ih h').1], ?_⟩
      intro x hx
      cases Option.some.inj hx
      exact ⟨_, rfl, rfl⟩
  refine ⟨xs, h1, h2.trans (hlen h.texts).1, ?_⟩
  intro s x hs hx
  obtain ⟨w, hw, ht⟩ := (hlen h.texts).2 s hs
  rw [h5 _ (by simp) w x hw hx, ht]

/-- **C115** for objects that are no streams, when strings are encrypted with RC4: each object is found in the saved file
with its strings enciphered for its number by the key of the document, unless they are exempt, and the API reads them as
before.  Missing: AES (`C115_aes_counterexample`); objects of which some strings are exempt, which are the
contents of signatures; objects in object streams. -/
theorem C115_objects_partial (h : Resaved m c k codec v doc owns resolve rnd iv iv' ss file F' d key) {alg : Algorithm}
    (ha : defaultAlgorithm d d.stringFilter = .ok alg) (hna : alg ≠ .aes) {xs : List (List XEntry × Dict)}
    (hx : openFile codec file = .ok (v, xs)) {n g : Nat} {o : SecObj} (ho : SecHolds doc.sections n g (.direct o))
    (hown : some (n, g) ∉ owns) {exempt : Bool} (hu : Uniform exempt o) (hn : n ≠ 0) (hent : F'.entry n g = some false)
    (r' : Bytes) (f : Nat) :
    ∃ w val, loadObject file xs (f + 2) n g = .ok (.direct w) ∧ ReadAs k doc.file n g rnd o val ∧
      SameBut (fun stored value =>
        stored = (if exempt = true ∨ d.entry = some (n, g) then value else enciphered k key n g value) ∧
        stringRead k F' exempt n g r' stored = .ok value) w (dropNulls val) := by
  obtain ⟨t, o', h1, h2, h3⟩ := h.loads hx ho hown f
  obtain ⟨w, hw, h1⟩ := except_bind_ok h1
  cases Except.ok.inj h1
  obtain ⟨val, h4, h5⟩ := savedObj_same (R := fun stored value =>
        stored = (if exempt = true ∨ d.entry = some (n, g) then value else enciphered k key n g value) ∧
        stringRead k F' exempt n g r' stored = .ok value)
    (fun st value hst => rc4_string h.lawful h.reopened ha hna hn hent r' hst) hu hw
  cases h3
  exact ⟨_, val, h2, h4, h5.dropNulls⟩

/-- **C115** fails for strings encrypted with AES, whatever the document: each string gets surplus bytes by being saved (see
C43), and so reads differently if it is not empty. -/
theorem C115_aes_counterexample (h : Resaved m c k codec v doc owns resolve rnd iv iv' ss file F' d key)
    (ha : defaultAlgorithm d d.stringFilter = .ok .aes) (hi : iv.length = 16) {xs : List (List XEntry × Dict)}
    (hx : openFile codec file = .ok (v, xs)) {n g : Nat} {o : SecObj} (ho : SecHolds doc.sections n g (.direct o))
    (hown : some (n, g) ∉ owns) (hu : Uniform false o) (hd : d.entry ≠ some (n, g)) (hn : n ≠ 0) (hent : F'.entry n g = some false)
    (r' : Bytes) (f : Nat) :
    ∃ w val, loadObject file xs (f + 2) n g = .ok (.direct w) ∧ ReadAs k doc.file n g rnd o val ∧
      SameBut (fun stored value => value.length + 32 < 2147483647 → value ≠ [] →
        ∃ value', stringRead k F' false n g r' stored = .ok value' ∧ value' ≠ value) w (dropNulls val) := by
  obtain ⟨t, o', h1, h2, h3⟩ := h.loads hx ho hown f
  obtain ⟨w, hw, h1⟩ := except_bind_ok h1
  cases Except.ok.inj h1
  obtain ⟨val, h4, h5⟩ := savedObj_same (R := fun stored value => value.length + 32 < 2147483647 → value ≠ [] →
        ∃ value', stringRead k F' false n g r' stored = .ok value' ∧ value' ≠ value)
    (fun st value hst hl h0 => by
      obtain ⟨alg, h6, h7⟩ := (C55_strings_partial h.lawful h.reopened hn hent r' hi hl hst).2 rfl hd
      cases Except.ok.inj (ha.symm.trans h6)
      refine ⟨_, h7, ?_⟩
      intro he
      have := congrArg List.length he
      rw [appended, if_pos ⟨rfl, h0⟩, List.length_append, List.length_replicate] at this
      have : surplus value.length = 0 := by omega
      unfold surplus at this
      split at this <;> omega) hu hw
  cases h3
  exact ⟨_, val, h2, h4, h5.dropNulls⟩

/-- What is loaded for the dictionary of a stream: under each key but Length what was there before. -/
def HeaderReads (k : Crypto) (F' : SecureFile) (exempt : Bool) (n g : Nat) (r' : Bytes) (loaded before : Dict) : Prop :=
  ∀ q, q ≠ b! "Length" → (valueAt q loaded = none ∧ valueAt q (dropNullsEntries before) = none) ∨
    ∃ x y, valueAt q loaded = some x ∧ valueAt q (dropNullsEntries before) = some y ∧
      SameBut (fun stored value => stringRead k F' exempt n g r' stored = .ok value) x y

/-- **C115** for streams the user did not change, when strings and streams are encrypted with RC4: the stream is in the
saved file with the same bytes, still encrypted, and is read as before.  Missing: AES, crypt filters (see C85 and C55). -/
theorem C115_streams_partial (h : Resaved m c k codec v doc owns resolve rnd iv iv' ss file F' d key) {alg alg' : Algorithm}
    (ha : defaultAlgorithm d d.stringFilter = .ok alg) (hna : alg ≠ .aes) (ha' : defaultAlgorithm d d.streamFilter = .ok alg')
    (hna' : alg' ≠ .aes) {xs : List (List XEntry × Dict)} (hx : openFile codec file = .ok (v, xs)) {n g : Nat}
    {entries : List (Bytes × SecObj)} {s : StreamState} (ho : SecHolds doc.sections n g (.stream entries s))
    (hown : some (n, g) ∉ owns) {exempt : Bool} (hu : UniformEntries exempt entries) (hn : n ≠ 0)
    (hent : doc.file.entry n g = some false) (hent' : F'.entry n g = some false) (hc : usesCrypt s.filter = false)
    (hs : s.dirty = false) (hca : CachesAgree m c k doc.file s n g rnd)
    (hl : ∀ dd, EntriesReadAs k doc.file n g rnd entries dd → LengthIs resolve dd s.raw.length) (r' : Bytes) (f : Nat) :
    ∃ loaded before, loadObject file xs (f + 2) n g = .ok (.stream loaded s.raw) ∧
      EntriesReadAs k doc.file n g rnd entries before ∧ HeaderReads k F' exempt n g r' loaded before ∧
      bodyDecrypted k F' (reloaded s s.raw) n g r' = bodyDecrypted k doc.file s n g rnd := by
  obtain ⟨t, o', h1, h2, h3⟩ := h.loads hx ho hown f
  unfold savedTop at h1
  obtain ⟨dd, hd, h1⟩ := except_bind_ok h1
  obtain ⟨before, h4, h5⟩ := savedEntries_same (R := fun stored value => stringRead k F' exempt n g r' stored = .ok value)
    (fun st value hst => (rc4_string h.lawful h.reopened ha hna hn hent' r' hst).2) hu hd
  have h6 := C85_rc4_partial h.lawful hn h.reopened.written ha' hna' hent hc hs hca (h5.length (hl _ h4)) h1
  subst h6
  cases h3 with
  | stream _ d' _ hq =>
    refine ⟨d', before, h2, h4, ?_, ?_⟩
    · intro q hne
      rw [hq q hne]
      exact h5.dropNulls.valueAt q
    · rw [bodyDecrypted_copy h.reopened (hent'.trans hent.symm) _ rnd r', bodyDecrypted_fresh hca]
      rfl

/-- **C115** for streams the user changed, with at most one filter: the new data, encoded by the filter, are read from the
saved file.  Missing: AES, arrays of filters, crypt filters (see C55). -/
theorem C115_changed_streams_partial (h : Resaved m c k codec v doc owns resolve rnd iv iv' ss file F' d key) {alg alg' : Algorithm}
    (ha : defaultAlgorithm d d.stringFilter = .ok alg) (hna : alg ≠ .aes) (ha' : defaultAlgorithm d d.streamFilter = .ok alg')
    (hna' : alg' ≠ .aes) {xs : List (List XEntry × Dict)} (hx : openFile codec file = .ok (v, xs)) {n g : Nat}
    {entries : List (Bytes × SecObj)} {s : StreamState} (ho : SecHolds doc.sections n g (.stream entries s))
    (hown : some (n, g) ∉ owns) {exempt : Bool} (hu : UniformEntries exempt entries) (hn : n ≠ 0)
    (hent' : F'.entry n g = some false) (hc : usesCrypt s.filter = false) (hm : ∀ us, s.filter ≠ .many us)
    (hs : s.dirty = true) {body encoded : Bytes} (hb : s.decoded = some body) (he : encodedWith c s.filter body = .ok encoded)
    (hlen : encoded.length + 32 < 2147483647) (hi' : iv'.length = 16)
    (hh : ∀ dd, EntriesReadAs k doc.file n g rnd entries dd → SortedKeys dd) (r' : Bytes) (f : Nat) :
    ∃ loaded before stored, loadObject file xs (f + 2) n g = .ok (.stream loaded stored) ∧
      EntriesReadAs k doc.file n g rnd entries before ∧ HeaderReads k F' exempt n g r' loaded before ∧
      bodyDecrypted k F' (reloaded s stored) n g r' = .ok encoded := by
  obtain ⟨t, o', h1, h2, h3⟩ := h.loads hx ho hown f
  unfold savedTop at h1
  obtain ⟨dd, hd, h1⟩ := except_bind_ok h1
  obtain ⟨before, h4, h5⟩ := savedEntries_same (R := fun stored value => stringRead k F' exempt n g r' stored = .ok value)
    (fun st value hst => (rc4_string h.lawful h.reopened ha hna hn hent' r' hst).2) hu hd
  unfold saveStream at h1
  obtain ⟨measured, h6, h1⟩ := except_bind_ok h1
  obtain ⟨ch, _, h1⟩ := except_bind_ok h1
  obtain ⟨d1, h7, h1⟩ := except_bind_ok h1
  obtain ⟨stored, h8, h1⟩ := except_bind_ok h1
  cases Except.ok.inj h1
  have e : ({ s with dirty := s.dirty || ch } : StreamState) = s := by rw [hs, Bool.true_or, ← hs]
  rw [e] at h8
  have read : ∀ {iv w}, iv.length = 16 → bodyEncoded m c k doc.file doc.encryptionDirty s n g rnd iv = .ok w →
      bodyDecrypted k F' (reloaded s w) n g r' = .ok encoded := by
    intro iv w hi hw
    obtain ⟨tail, h9, h10⟩ := C55_changed_streams_partial h.lawful h.reopened hn hent' m c doc.encryptionDirty r' hi hlen hc hm hs
      hb he hw
    have ht : tail = [] := by
      unfold streamAppended at h9
      split at h9
      · exact h9
      · obtain ⟨a, h11, h12⟩ := h9
        cases Except.ok.inj (ha'.symm.trans h11)
        rw [h12, appended, if_neg (fun h => hna' h.1)]
    rw [h10, ht, List.append_nil]
  have h9 := recalcLength_others h7 (by
    have := h5.keys
    have hh := hh _ h4
    unfold SortedKeys at hh ⊢
    rw [← List.pairwise_map (f := fun x : Bytes × Obj => x.1) (R := fun a b => bytesLt a b = true)] at hh ⊢
    rwa [this])
  cases h3 with
  | stream _ d' _ hq =>
    refine ⟨d', before, stored, h2, h4, ?_, read hi' h8⟩
    intro q hne
    rw [hq q hne, h9 q hne]
    exact h5.dropNulls.valueAt q

end Full

/-! ## C116 -/

/-- The file `src` was saved with the sections `ss`; it is opened, giving the file `F` to read strings and streams with, and
changed, giving the sections `secs`; the changes are saved incrementally to `out`.  `cur` is what the changed objects look
like in the file.  The last conditions are those of C62. -/
structure SavedChanges (m : Overflow) (c : Codecs) (k : Crypto) (codec : Codec) (v : PdfVersion) (ss : List WSection)
    (src : Bytes) (F : SecureFile) (secs : List MarkedSection) (resolve : Nat → Nat → Res Int) (rnd iv iv' : Bytes)
    (cur : List ISection) (out : Bytes) : Prop where
  faithful : Faithful codec
  nonempty : ss ≠ []
  good : GoodDoc ss
  lengths : StableLengths ss
  before : saveFile codec v ss = .ok src
  texts : incrementalSections m c k F resolve rnd iv iv' secs = .ok cur
  saved : saveChanges m c k codec F src secs resolve rnd iv iv' = .ok out
  size : out.length ≤ 9223372036854775807
  modified : ModifiedDoc cur ss
  changes : Changes cur ss
  sections : ∀ i ∈ cur, GoodSection i.plain
  count : (cur.flatMap ISection.entries).length < 2147483648
  offset : ∀ i, cur.head? = some i → lastXrefOffset src = .ok i.offset
  prev : ∀ i, cur.head? = some i → valueAt (b! "Prev") i.trailer = none

section Incremental

variable {m : Overflow} {c : Codecs} {k : Crypto} {codec : Codec} {v : PdfVersion} {ss : List WSection}
  {src : Bytes} {F : SecureFile} {secs : List MarkedSection} {resolve : Nat → Nat → Res Int} {rnd iv iv' : Bytes}
  {cur : List ISection} {out : Bytes}

/-- What is loaded from the output for a changed object. -/
theorem SavedChanges.loads (h : SavedChanges m c k codec v ss src F secs resolve rnd iv iv' cur out)
    {n g : Nat} {t : SecTop} (ht : ChangedIn secs n g t) :
    ∃ xs, openFile codec out = .ok (v, xs) ∧ ∃ t' o, copiedTop k F n g rnd t = .ok t' ∧
      savedTop m c k ⟨freshFile, false, []⟩ resolve n g rnd iv iv' t' = .ok o ∧
      ∀ f, ∃ o', loadObject out xs (f + 2) n g = .ok o' ∧ SameObject o o' := by
  obtain ⟨t', o, h1, h2, h3⟩ := incrementalSections_holds ht h.texts
  have h4 := h.saved
  unfold saveChanges at h4
  rw [h.texts, ok_bind] at h4
  obtain ⟨xs, h5, h6⟩ := C62_changes_saved_partial codec h.faithful v ss src out cur h.nonempty h.good h.lengths h.before
    h.modified h.changes h.sections h.count h.offset (incrementalSections_marked ht h.texts) h.prev h4 h.size
  exact ⟨xs, h5, t', o, h1, h2, h6 n g o h3⟩

/-- **C116** fails for each changed object, whatever the encryption: an incremental save writes the strings of the object in
clear, as the API read them. -/
theorem C116_clear_counterexample (h : SavedChanges m c k codec v ss src F secs resolve rnd iv iv' cur out)
    {n g : Nat} {o : SecObj} (ho : ChangedIn secs n g (.direct o)) :
    ∃ xs value, openFile codec out = .ok (v, xs) ∧ ReadAs k F n g rnd o value ∧
      ∀ f, loadObject out xs (f + 2) n g = .ok (.direct (dropNulls value)) := by
  obtain ⟨xs, h1, t', w, h2, h3, h4⟩ := h.loads ho
  obtain ⟨o', h5, h2⟩ := except_bind_ok h2
  cases Except.ok.inj h2
  obtain ⟨w', h6, h3⟩ := except_bind_ok h3
  cases Except.ok.inj h3
  obtain ⟨value, h7, h8⟩ := forceObj_saved iv h5
  cases Except.ok.inj ((savedObj_plain rfl rfl o').symm.trans h7 |>.symm.trans h6)
  refine ⟨xs, _, h1, h8, ?_⟩
  intro f
  obtain ⟨o'', h9, h10⟩ := h4 f
  cases h10
  exact h9

/-- Reading bytes that were not encrypted. -/
theorem rc4_clear {k : Crypto} {F' : SecureFile} {d : EncDict} {key : Bytes} (hF' : F'.dict = some d)
    (hkey : ∀ r, fileKey k F' d r = .ok key) {alg : Algorithm} (ha : defaultAlgorithm d d.stringFilter = .ok alg) (hna : alg ≠ .aes)
    {n g : Nat} (hd : d.entry ≠ some (n, g)) (hent : F'.entry n g = some false) (r' : Bytes) {value : Bytes}
    (hl : value.length < 2147483647) : stringRead k F' false n g r' value = .ok (enciphered k key n g value) := by
  have e2 : F'.isEncrypted = true := by simp [SecureFile.isEncrypted, hF']
  unfold stringRead
  rw [e2]
  simp only [Bool.not_false, Bool.and_self, if_true]
  unfold decryptString
  rw [hF']
  dsimp only
  rw [ha, ok_bind]
  unfold decryptAlg
  rw [hF']
  dsimp only
  by_cases h0 : value = []
  · rw [if_pos h0, h0]; simp [enciphered, Spec.rc4]
  · rw [if_neg h0, if_neg hd, hent]
    dsimp only
    rw [hkey, ok_bind, if_neg (fun h => hna h.2), if_neg hna, computeRC4_ok k (Nat.le_refl _) _ hl, List.take_length, C45_derivation]
    · simp [enciphered, Spec.rc4, xorBytes, hna]
    · rw [C45_derivation, List.length_take]; omega

/-- **C116** fails also for the reader: when the output is opened with the key of the document, which uses RC4, the API reads
for each string of a changed object the cipher of what it should be. -/
theorem C116_unreadable_counterexample (h : SavedChanges m c k codec v ss src F secs resolve rnd iv iv' cur out)
    {F' : SecureFile} {d : EncDict} {key : Bytes} (hF : Reopened k F F' d key) {alg : Algorithm}
    (ha : defaultAlgorithm d d.stringFilter = .ok alg) (hna : alg ≠ .aes) {n g : Nat} {o : SecObj}
    (ho : ChangedIn secs n g (.direct o)) (hd : d.entry ≠ some (n, g)) (hent : F'.entry n g = some false) :
    ∃ xs loaded value, openFile codec out = .ok (v, xs) ∧ (∀ f, loadObject out xs (f + 2) n g = .ok (.direct loaded)) ∧
      ReadAs k F n g rnd o value ∧ SameBut (fun stored should => should.length < 2147483647 →
        ∀ r', stringRead k F' false n g r' stored = .ok (enciphered k key n g should)) loaded (dropNulls value) := by
  obtain ⟨xs, value, h1, h2, h3⟩ := C116_clear_counterexample h ho
  exact ⟨xs, _, value, h1, h3, h2, SameBut.self (fun s hl r' => rc4_clear hF.read hF.readKey ha hna hd hent r' hl) _⟩

/-- **C116**, streams whose data were not decoded: the stored bytes are kept, and so the data are read as before; the strings
of the dictionary are written in clear. -/
theorem C116_streams_partial (h : SavedChanges m c k codec v ss src F secs resolve rnd iv iv' cur out)
    {n g : Nat} {entries : List (Bytes × SecObj)} {s : StreamState} (ho : ChangedIn secs n g (.stream entries s))
    (hs : s.decoded = none) (hh : ∀ dd, EntriesReadAs k F n g rnd entries dd → SortedKeys dd) :
    ∃ xs before, openFile codec out = .ok (v, xs) ∧ EntriesReadAs k F n g rnd entries before ∧
      ∀ f, ∃ loaded, loadObject out xs (f + 2) n g = .ok (.stream loaded s.raw) ∧
        ∀ q, q ≠ b! "Length" → valueAt q loaded = valueAt q (dropNullsEntries before) := by
  obtain ⟨xs, h1, t', w, h2, h3, h4⟩ := h.loads ho
  obtain ⟨es, h5, h2⟩ := except_bind_ok h2
  cases Except.ok.inj h2
  unfold savedTop at h3
  obtain ⟨dd, h6, h3⟩ := except_bind_ok h3
  obtain ⟨value, h7, h8⟩ := forceEntries_saved iv h5
  cases Except.ok.inj ((savedEntries_plain rfl rfl es).symm.trans h7 |>.symm.trans h6)
  unfold saveStream at h3
  obtain ⟨measured, _, h3⟩ := except_bind_ok h3
  obtain ⟨ch, _, h3⟩ := except_bind_ok h3
  obtain ⟨d1, h9, h3⟩ := except_bind_ok h3
  obtain ⟨stored, h10, h3⟩ := except_bind_ok h3
  cases Except.ok.inj h3
  unfold bodyEncoded at h10
  rw [if_pos (by simp [SecureFile.isEncrypted, freshFile, hs])] at h10
  cases Except.ok.inj h10
  refine ⟨xs, _, h1, h8, ?_⟩
  intro f
  obtain ⟨o', h11, h12⟩ := h4 f
  cases h12 with
  | stream _ d' _ hq =>
    exact ⟨d', h11, fun q hne => (hq q hne).trans (recalcLength_others h9 (hh _ h8) q hne)⟩

/-- **C116** fails for streams whose data were changed: the data, encoded by the filter, are written in clear. -/
theorem C116_changed_streams_counterexample (h : SavedChanges m c k codec v ss src F secs resolve rnd iv iv' cur out)
    {n g : Nat} {entries : List (Bytes × SecObj)} {s : StreamState} (ho : ChangedIn secs n g (.stream entries s))
    (hs : s.dirty = true) {body encoded : Bytes} (hb : s.decoded = some body) (hc : usesCrypt s.filter = false)
    (hm : ∀ us, s.filter ≠ .many us) (he : encodedWith c s.filter body = .ok encoded) :
    ∃ xs, openFile codec out = .ok (v, xs) ∧
      ∀ f, ∃ loaded, loadObject out xs (f + 2) n g = .ok (.stream loaded encoded) := by
  obtain ⟨xs, h1, t', w, h2, h3, h4⟩ := h.loads ho
  obtain ⟨es, h5, h2⟩ := except_bind_ok h2
  cases Except.ok.inj h2
  unfold savedTop at h3
  obtain ⟨dd, h6, h3⟩ := except_bind_ok h3
  unfold saveStream at h3
  obtain ⟨measured, _, h3⟩ := except_bind_ok h3
  obtain ⟨ch, _, h3⟩ := except_bind_ok h3
  obtain ⟨d1, h9, h3⟩ := except_bind_ok h3
  obtain ⟨stored, h10, h3⟩ := except_bind_ok h3
  cases Except.ok.inj h3
  have : stored = encoded := by
    have hb' : ∀ s' : StreamState, s'.decoded = s.decoded → streamBody m c k freshFile s' n g rnd = .ok body := by
      intro s' hs'; unfold streamBody; rw [hs', hb]
    have hse : ∀ e b, streamEncrypt k freshFile e n g rnd iv' b = .ok b := by
      intro e b; unfold streamEncrypt; simp [SecureFile.isEncrypted, freshFile]
    unfold bodyEncoded at h10
    rw [if_neg (by simp [hs, hb]), if_neg (by simp [hs])] at h10
    dsimp only at h10
    rw [hb' ⟨s.filter, s.raw, s.decrypted, s.decoded, s.dirty || ch, s.exempt⟩ rfl, ok_bind] at h10
    cases hf : s.filter with
    | absent =>
      rw [hf] at h10 he
      exact Except.ok.inj (h10.symm.trans ((hse _ _).trans he))
    | null =>
      rw [hf] at h10 he
      exact Except.ok.inj (h10.symm.trans ((hse _ _).trans he))
    | one u =>
      have hu : u.filter ≠ .crypt := by rw [hf] at hc; simpa [usesCrypt] using hc
      rw [hf] at h10 he
      simp only [encodedWith] at he
      dsimp only at h10
      rw [if_neg hu] at h10 he
      rw [he, ok_bind] at h10
      exact Except.ok.inj (h10.symm.trans (hse _ _))
    | many us => exact absurd hf (hm us)
  subst this
  refine ⟨xs, h1, ?_⟩
  intro f
  obtain ⟨o', h11, h12⟩ := h4 f
  cases h12 with
  | stream _ d' _ hq => exact ⟨d', h11⟩

end Incremental

/-! ### Cases that meet the hypotheses -/

/-- A cipher that flips the low bits, with the same interface. -/
def easyCrypto : Crypto where
  md5 := fun d => (d ++ List.replicate 16 0).take 16
  keystream := fun _ n => List.replicate n 3
  blockEnc := fun _ b => b
  blockDec := fun _ b => b

theorem easyCrypto_lawful : Lawful easyCrypto where
  md5_length := by intro d; simp [easyCrypto]
  keystream_length := by intro key n; simp [easyCrypto]
  blockEnc_length := by intro key b h; exact h
  blockDec_blockEnc := by intro key b h; rfl

theorem easyReopened : Reopened easyCrypto (sampleSecure none 2) (sampleSecure none 2) ((sampleSecure none 2).dict.get rfl)
    (b! "0123456789abcdef") := ⟨rfl, rfl, fun _ => rfl, fun _ => rfl⟩

/-- A stream that was not looked at. -/
def easyStream : StreamState := ⟨.absent, b! "kbmmj", none, none, false, false⟩

/-- A stream that was changed. -/
def easyChanged : StreamState := ⟨.absent, b! "kbmmj", none, some (b! "more data"), true, false⟩

/-- A document with a dictionary that has a string, and two streams. -/
def easyDoc : SecDoc where
  file := sampleSecure none 2
  encryptionDirty := false
  sections := [⟨[(b! "Encrypt", .ref 9 0), (b! "Root", .ref 1 0)],
    [⟨0, 65535, none⟩, ⟨1, 0, some (.direct (.dict [(b! "Title", .str ⟨false, b! "BAC", none, false⟩)]))⟩,
    ⟨2, 0, some (.stream [(b! "Length", .other (.int 5))] easyStream)⟩,
    ⟨3, 0, some (.stream [(b! "Length", .other (.int 5))] easyChanged)⟩]⟩]

/-- What is in the file: the bytes of the stream are those of before. -/
def easySaved : List WSection :=
  [⟨none, [⟨0, 65535, .free 0⟩, ⟨1, 0, .used 0 (some (.direct (.dict [(b! "Title", .lit (b! "BAC"))])))⟩,
    ⟨2, 0, .used 0 (some (.stream [(b! "Length", .int 5)] (b! "kbmmj")))⟩,
    ⟨3, 0, .used 0 (some (.stream [(b! "Length", .int 9)] (b! "nlqf#gbwb")))⟩],
    [(b! "Encrypt", .ref 9 0), (b! "Root", .ref 1 0)]⟩]

/-- The values of lengths that are references; there are none. -/
def noLengths : Nat → Nat → Res Int := fun _ _ => .error .missing

theorem easySaved_good : GoodDoc easySaved := by
  refine ⟨?_, by intro s h; cases h; rfl⟩
  intro s hs
  cases List.mem_singleton.mp hs
  refine ⟨by decide, by decide, by decide, ?_, ?_, by intro n g h; cases h⟩
  · intro e he
    simp only [List.mem_cons, List.not_mem_nil, or_false] at he
    rcases he with rfl | rfl | rfl | rfl <;> dsimp only
    · rintro x ⟨⟩; exact .dict _ (by unfold SortedKeys; decide) (by intro x hx; simp at hx; subst hx; exact .lit _)
    · rintro x ⟨⟩; exact .dict _ (by unfold SortedKeys; decide) (by intro x hx; simp at hx; subst hx; exact .int _ (by decide) (by decide))
    · rintro x ⟨⟩; exact .dict _ (by unfold SortedKeys; decide) (by intro x hx; simp at hx; subst hx; exact .int _ (by decide) (by decide))
  · refine .dict _ (by unfold SortedKeys; decide) ?_
    intro x hx
    simp only [List.mem_cons, List.not_mem_nil, or_false] at hx
    rcases hx with rfl | rfl <;> exact .ref _ _ (by decide) (by decide)

theorem easySaved_stable : StableLengths easySaved := by
  intro s hs e he d body n g h1 h2 o h3
  exact h3

/-- The bytes of a file, if it could be saved. -/
def bytesOf : Res Bytes → Bytes
  | .ok b => b
  | .error _ => []

theorem bytesOf_ok {r : Res Bytes} (h : r.toBool = true) : r = .ok (bytesOf r) := by
  cases r with
  | ok b => rfl
  | error e => cases h

theorem easyResaved : Resaved .wrap toyCodecs easyCrypto plainCodec .v17 easyDoc [none] noLengths [] (b! "fedcba9876543210")
    (b! "fedcba9876543210") easySaved (bytesOf (saveFile plainCodec .v17 easySaved)) (sampleSecure none 2)
    ((sampleSecure none 2).dict.get rfl) (b! "0123456789abcdef") where
  lawful := easyCrypto_lawful
  faithful := by intro d d' b x h _; cases h; rfl
  reopened := easyReopened
  texts := by rfl
  nonempty := by decide
  good := easySaved_good
  lengths := easySaved_stable
  saved := by
    have : secureSections .wrap toyCodecs easyCrypto easyDoc noLengths [] (b! "fedcba9876543210") (b! "fedcba9876543210") [none]
      easyDoc.sections = .ok easySaved := by rfl
    unfold saveProtected
    rw [this, ok_bind]
    exact bytesOf_ok (by decide +kernel)
  size := by decide +kernel

/-- The hypotheses of `C115_objects_partial`, `C115_streams_partial` and `C115_changed_streams_partial` hold of it. -/
example : SecHolds easyDoc.sections 1 0 (.direct (.dict [(b! "Title", .str ⟨false, b! "BAC", none, false⟩)])) ∧
    Uniform false (.dict [(b! "Title", .str ⟨false, b! "BAC", none, false⟩)]) ∧
    SecHolds easyDoc.sections 2 0 (.stream [(b! "Length", .other (.int 5))] easyStream) ∧
    SecHolds easyDoc.sections 3 0 (.stream [(b! "Length", .other (.int 5))] easyChanged) ∧
    CachesAgree .wrap toyCodecs easyCrypto easyDoc.file easyStream 2 0 [] ∧
    defaultAlgorithm ((sampleSecure none 2).dict.get rfl) (some (b! "StdCF")) = .ok .rc4 ∧
    encodedWith toyCodecs easyChanged.filter (b! "more data") = .ok (b! "more data") ∧
    stringRead easyCrypto (sampleSecure none 2) false 1 0 [] (b! "BAC") = .ok (b! "AB@") := by
  refine ⟨.here ?_, .dict (.cons (.str rfl) .nil), .here ?_, .here ?_, ?_, by rfl, rfl, by rfl⟩
  · simp
  · simp
  · simp
  · exact ⟨nofun, nofun⟩

/-- The same document after its object 1 was changed. -/
def easyMarked (off : Int) : List MarkedSection :=
  [⟨none, [.kept ⟨0, 65535, .free 0⟩, .changed 1 0 (some (.direct (.dict [(b! "Title", .str ⟨false, b! "BAC", some (b! "new"), false⟩)]))),
    .changed 2 0 (some (.stream [(b! "Length", .other (.int 5))] easyStream)),
    .changed 3 0 (some (.stream [(b! "Length", .other (.int 5))] easyChanged))],
    [(b! "Encrypt", .ref 9 0), (b! "Root", .ref 1 0)], off⟩]

/-- What an incremental save writes: the string and the data of the changed stream are in clear. -/
def easyCur (off : Int) : List ISection :=
  [⟨none, [⟨⟨0, 65535, .free 0⟩, false⟩, ⟨⟨1, 0, .used 0 (some (.direct (.dict [(b! "Title", .lit (b! "new"))])))⟩, true⟩,
    ⟨⟨2, 0, .used 0 (some (.stream [(b! "Length", .int 5)] (b! "kbmmj")))⟩, true⟩,
    ⟨⟨3, 0, .used 0 (some (.stream [(b! "Length", .int 9)] (b! "more data")))⟩, true⟩],
    [(b! "Encrypt", .ref 9 0), (b! "Root", .ref 1 0)], off⟩]

theorem easyCur_good (off : Int) : ∀ i ∈ easyCur off, GoodSection i.plain := by
  intro i hi
  cases List.mem_singleton.mp hi
  refine ⟨by simp [ISection.plain], by simp [ISection.plain], by simp [ISection.plain], ?_, ?_, by intro n g h; cases h⟩
  · intro e he
    simp only [ISection.plain, List.map_cons, List.map_nil, List.mem_cons, List.not_mem_nil, or_false] at he
    rcases he with rfl | rfl | rfl | rfl <;> dsimp only
    · rintro x ⟨⟩; exact .dict _ (by unfold SortedKeys; decide) (by intro x hx; simp at hx; subst hx; exact .lit _)
    · rintro x ⟨⟩; exact .dict _ (by unfold SortedKeys; decide) (by intro x hx; simp at hx; subst hx; exact .int _ (by decide) (by decide))
    · rintro x ⟨⟩; exact .dict _ (by unfold SortedKeys; decide) (by intro x hx; simp at hx; subst hx; exact .int _ (by decide) (by decide))
  · refine .dict _ (show SortedKeys [(b! "Encrypt", Obj.ref 9 0), (b! "Root", .ref 1 0)] by unfold SortedKeys; decide) ?_
    intro x hx
    simp only [ISection.plain, List.mem_cons, List.not_mem_nil, or_false] at hx
    rcases hx with rfl | rfl <;> exact .ref _ _ (by decide) (by decide)

theorem easyTexts (off : Int) : incrementalSections .wrap toyCodecs easyCrypto (sampleSecure none 2) noLengths []
    (b! "fedcba9876543210") (b! "fedcba9876543210") (easyMarked off) = .ok (easyCur off) := by rfl

/-- Where the table of the saved document is. -/
def easyOffset : Int := match lastXrefOffset (bytesOf (saveFile plainCodec .v17 easySaved)) with
  | .ok i => i
  | .error _ => 0

/-- The hypotheses of the theorems on C116 hold of it. -/
theorem easyIncremental : SavedChanges .wrap toyCodecs easyCrypto plainCodec .v17 easySaved
    (bytesOf (saveFile plainCodec .v17 easySaved)) (sampleSecure none 2) (easyMarked easyOffset) noLengths []
    (b! "fedcba9876543210") (b! "fedcba9876543210") (easyCur easyOffset)
    (bytesOf (saveIncremental plainCodec (bytesOf (saveFile plainCodec .v17 easySaved)) (easyCur easyOffset))) where
  faithful := by intro d d' b x h _; cases h; rfl
  nonempty := by decide
  good := easySaved_good
  lengths := easySaved_stable
  before := bytesOf_ok (by decide +kernel)
  texts := easyTexts _
  saved := by
    unfold saveChanges
    rw [easyTexts, ok_bind]
    exact bytesOf_ok (by decide +kernel)
  size := by decide +kernel
  modified := by
    refine .cons _ _ _ _ ⟨rfl, ?_, ?_⟩ .nil
    · intro e he hd
      simp only [List.mem_cons, List.not_mem_nil, or_false] at he
      rcases he with rfl | rfl | rfl | rfl
      · exact ⟨⟨0, 65535, .free 0⟩, by simp, rfl, rfl, rfl⟩
      all_goals cases hd
    · intro x hx
      simp only [List.mem_cons, List.not_mem_nil, or_false] at hx
      rcases hx with rfl | rfl | rfl | rfl <;> simp
  changes := by
    refine ⟨List.pairwise_singleton _ _, ?_, ?_, ?_⟩
    · intro i hi e he h0
      cases List.mem_singleton.mp hi
      simp only [List.mem_cons, List.not_mem_nil, or_false] at he
      rcases he with rfl | rfl | rfl | rfl
      · exact ⟨0, rfl⟩
      all_goals cases h0
    · rintro e o ⟨hd, i, hi, he⟩ hk
      cases List.mem_singleton.mp hi
      simp only [List.mem_cons, List.not_mem_nil, or_false] at he
      rcases he with rfl | rfl | rfl | rfl <;> cases hk
    · intro s hs x hx d body n g h1 h2
      cases List.mem_singleton.mp hs
      simp only [List.mem_cons, List.not_mem_nil, or_false] at hx
      rcases hx with rfl | rfl | rfl | rfl <;> cases h1 <;> cases h2
  sections := easyCur_good _
  count := by decide
  offset := by intro i hi; cases Option.some.inj hi; decide +kernel
  prev := by intro i hi; cases Option.some.inj hi; rfl

example : ChangedIn (easyMarked easyOffset) 1 0 (.direct (.dict [(b! "Title", .str ⟨false, b! "BAC", some (b! "new"), false⟩)])) ∧
    ChangedIn (easyMarked easyOffset) 2 0 (.stream [(b! "Length", .other (.int 5))] easyStream) ∧
    ChangedIn (easyMarked easyOffset) 3 0 (.stream [(b! "Length", .other (.int 5))] easyChanged) ∧
    stringRead easyCrypto (sampleSecure none 2) false 1 0 [] (b! "new") = .ok (b! "mft") :=
  ⟨.here nofun (by simp), .here nofun (by simp), .here nofun (by simp), by rfl⟩

end VPdf
