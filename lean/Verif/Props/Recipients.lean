import Verif.Spec.Recipients
import Verif.Props.PageFonts
/-
  C109: files encrypted for recipients.
-/
namespace VPdf
open Spec

/-! ### Envelopes -/

theorem tryRecipients_foreign (p : Pkcs7) (key : PrivateKey) (e : Envelope) (before after : List Recipient)
    (h : ∀ r ∈ before, Foreign key r) : tryRecipients p key e (before ++ after) = tryRecipients p key e after := by
  induction before with
  | nil => rfl
  | cons r rs ih =>
    have hr : key.contains r.issuer r.serial = .ok false := h r List.mem_cons_self
    rw [List.cons_append, tryRecipients, hr]
    simp only [ok_bind, Bool.false_eq_true, if_false]
    exact ih (fun x hx => h x (List.mem_cons_of_mem _ hx))

theorem tryRecipients_all_foreign (p : Pkcs7) (key : PrivateKey) (e : Envelope) (l : List Recipient)
    (h : ∀ r ∈ l, Foreign key r ∨ (e.keyLength = none ∧ Mine key r ∧ ∃ k, key.decrypt r.wrapped = .ok k)) :
    tryRecipients p key e l = .ok none := by
  induction l with
  | nil => rfl
  | cons r rs ih =>
    have ih := ih (fun x hx => h x (List.mem_cons_of_mem _ hx))
    rcases h r List.mem_cons_self with hr | ⟨hn, hm, k, hk⟩
    · rw [tryRecipients, show key.contains r.issuer r.serial = .ok false from hr]
      simpa only [ok_bind, Bool.false_eq_true, if_false] using ih
    · rw [tryRecipients, show key.contains r.issuer r.serial = .ok true from hm]
      simp only [ok_bind, if_true, hk, hn]
      exact ih

theorem recipientString_of {s : PStore} {o : Obj} {b : Bytes} (h : IsString s o b) : recipientString s o = .ok b := by
  rcases h with h | h <;> simp [recipientString, derefOne_of_refers h]

theorem recipientText_of {s : PStore} : ∀ {os : List Obj} {bs : List Bytes}, StringArray s os bs →
    recipientText s os = .ok bs.flatten
  | [], [], _ => rfl
  | o :: os, b :: bs, h => by
    rw [recipientText, recipientString_of h.1, ok_bind, recipientText_of h.2]
    rfl
  | [], _ :: _, h => h.elim
  | _ :: _, [], h => h.elim

theorem openEnvelopes_skip {p : Pkcs7} {key : PrivateKey} {s : PStore} {o : Obj} {os : List Obj} {b : Bytes}
    (hs : IsString s o b) (h : ForOthers p key b) : openEnvelopes p key s (o :: os) = openEnvelopes p key s os := by
  rw [openEnvelopes, recipientString_of hs, ok_bind]
  rcases h with h | ⟨e, h, hf⟩
  · rw [h]
  · rw [h]
    simp only
    rw [tryRecipients_all_foreign p key e _ hf]
    rfl

theorem openEnvelopes_none {p : Pkcs7} {key : PrivateKey} {s : PStore} : ∀ {os : List Obj} {bs : List Bytes},
    StringArray s os bs → (∀ b ∈ bs, ForOthers p key b) → openEnvelopes p key s os = .error .throw
  | [], [], _, _ => rfl
  | _ :: _, b :: _, h, hf => by
    rw [openEnvelopes_skip h.1 (hf b List.mem_cons_self)]
    exact openEnvelopes_none h.2 (fun x hx => hf x (List.mem_cons_of_mem _ hx))
  | [], _ :: _, h, _ => h.elim
  | _ :: _, [], h, _ => h.elim

theorem openEnvelopes_some {p : Pkcs7} {key : PrivateKey} {s : PStore} {b content : Bytes} {after : List Bytes}
    (hb : OpensTo p key b content) : ∀ {os : List Obj} {before : List Bytes},
    StringArray s os (before ++ b :: after) → (∀ x ∈ before, ForOthers p key x) →
    openEnvelopes p key s os = .ok content
  | [], [], h, _ => h.elim
  | [], _ :: _, h, _ => h.elim
  | o :: os, x :: before, h, hf => by
    rw [openEnvelopes_skip h.1 (hf x List.mem_cons_self)]
    exact openEnvelopes_some hb h.2 (fun y hy => hf y (List.mem_cons_of_mem _ hy))
  | o :: os, [], h, _ => by
    obtain ⟨e, bef, r, aft, n, k, he, hr, hfor, hm, hn, hk, hl, rfl⟩ := hb
    rw [openEnvelopes, recipientString_of h.1, ok_bind, he]
    simp only
    rw [hr, tryRecipients_foreign p key e bef _ hfor, tryRecipients, show key.contains r.issuer r.serial = .ok true from hm]
    simp only [ok_bind, if_true, hk, hn]
    rw [if_neg (by omega)]
    rfl

/-! ### Settings -/

theorem requiredName_of {s : PStore} {d : Dict} {k n : Bytes} (h : HasEntry s d k (.name n)) : requiredName s d k = .ok n := by
  rw [requiredName, treeEntry_of_has h]; rfl

theorem lengthEntry_of {s : PStore} {d : Dict} {k : Bytes} {n : Int} (h : HasEntry s d k (.int n)) (x : Int) :
    lengthEntry s d k x = .ok n := by
  obtain ⟨o, ho⟩ := find_of_has h
  rw [lengthEntry, ho]
  simp only
  rw [treeEntry_of_has h]
  rfl

theorem lengthEntry_absent {s : PStore} {d : Dict} {k : Bytes} (h : Absent d k) (x : Int) : lengthEntry s d k x = .ok x := by
  rw [lengthEntry, absent_iff.mp h]

theorem settings_of {s : PStore} {d : Dict} {os : List Obj} {bits : Int} {aes : Bool} (h : ForRecipients s d os bits aes) :
    recipientSettings s d = .ok (os, bits, aes) := by
  cases h with
  | plain filter sub _ _ h1 h2 h3 h4 h5 =>
    rw [recipientSettings, requiredName_of h1, ok_bind, requiredName_of h2, ok_bind, lengthEntry_of h4, ok_bind, if_pos h3,
      treeArray_of_has h5]
    rfl
  | filter filter cf f method _ _ h1 h2 h3 h4 h5 h6 h7 h8 =>
    rw [recipientSettings, requiredName_of h1, ok_bind, requiredName_of h2, ok_bind, lengthEntry_of h3, ok_bind,
      if_neg (by decide +kernel), if_pos rfl, defaultFilter, dictEntry_of_has h4, ok_bind]
    simp only
    rw [dictEntry_of_has h5, ok_bind]
    simp only
    rw [filterRecipients, nameEntry_of_has h6, ok_bind]
    simp only
    have hm : method ≠ b! "AESV3" := by rcases h7 with rfl | rfl <;> decide +kernel
    rw [if_neg hm, ok_bind, treeArray_of_has h8, ok_bind]
    simp [hm]
  | long filter cf f _ h1 h2 h3 h4 h5 h6 h7 h8 =>
    rw [recipientSettings, requiredName_of h1, ok_bind, requiredName_of h2, ok_bind, lengthEntry_absent h3, ok_bind,
      if_neg (by decide +kernel), if_pos rfl, defaultFilter, dictEntry_of_has h4, ok_bind]
    simp only
    rw [dictEntry_of_has h5, ok_bind]
    simp only
    rw [filterRecipients, nameEntry_of_has h6, ok_bind]
    simp only
    rw [if_pos trivial, lengthEntry_of h7, ok_bind, treeArray_of_has h8, ok_bind]
    simp

theorem recipientKey_of {p : Pkcs7} {key : PrivateKey} {s : PStore} {os : List Obj} {strings : List Bytes}
    {content : Bytes} (ho : openEnvelopes p key s os = .ok content) (hs : StringArray s os strings)
    (hc : 20 ≤ content.length) (bits : Nat) (aes : Bool) :
    recipientKey p key s os bits aes = .ok (recipientFileKey (digestOf p bits aes) (content.take 20) strings true bits) := by
  rw [recipientKey, ho, ok_bind, if_neg (by omega), recipientText_of hs, ok_bind]
  have h8 : ((bits : Int).tdiv 8) = ((bits / 8 : Nat) : Int) := by
    rw [Int.tdiv_eq_ediv_of_nonneg (by omega)]
    omega
  simp only
  rw [h8, if_neg (by omega), ok_bind]
  simp only [recipientFileKey, digestOf, if_true, List.append_nil, Int.toNat_natCast]
  by_cases h : bits = 256 ∧ aes
  · rw [if_pos h, if_pos (by exact_mod_cast h)]
  · rw [if_neg h, if_neg (by exact_mod_cast h)]

/-- **C109.** A file encrypted for recipients, metadata included: with a key that fits one of them – the first envelope
that is for the key opens with it to at least the twenty bytes of the seed – the file is unlocked, and the key it keeps
is the one the standard prescribes. -/
theorem C109_unlock_partial (p : Pkcs7) (key : PrivateKey) (s : PStore) (d : Dict) (old : Option Bytes) (os : List Obj)
    (before : List Bytes) (b : Bytes) (after : List Bytes) (content : Bytes) (bits : Nat) (aes : Bool)
    (hd : ForRecipients s d os bits aes) (hs : StringArray s os (before ++ b :: after))
    (hf : ∀ x ∈ before, ForOthers p key x) (hb : OpensTo p key b content) (hc : 20 ≤ content.length) :
    setKey p key s (some d) old =
      .ok (true, some (recipientFileKey (digestOf p bits aes) (content.take 20) (before ++ b :: after) true bits)) := by
  rw [setKey, settings_of hd, ok_bind]
  simp only
  rw [recipientKey_of (openEnvelopes_some hb hs hf) hs hc]

/-- **C109.** A key that is for none of the recipients is refused, and the file keeps the key it had; so is every key
for a file that is not encrypted. -/
theorem C109_refuse (p : Pkcs7) (key : PrivateKey) (s : PStore) (d : Dict) (old : Option Bytes) (os : List Obj)
    (strings : List Bytes) (bits : Int) (aes : Bool) (hd : ForRecipients s d os bits aes) (hs : StringArray s os strings)
    (hf : ∀ x ∈ strings, ForOthers p key x) :
    setKey p key s (some d) old = .ok (false, old) ∧ setKey p key s none old = .ok (false, old) := by
  refine ⟨?_, rfl⟩
  rw [setKey, settings_of hd, ok_bind]
  simp only
  rw [recipientKey, openEnvelopes_none hs hf]
  rfl

/-- **C109 fails for short contents.** An envelope for the key whose content has fewer than twenty bytes: bytes behind
the buffer are read. -/
theorem C109_short_counterexample (p : Pkcs7) (key : PrivateKey) (s : PStore) (d : Dict) (old : Option Bytes)
    (os : List Obj) (before : List Bytes) (b : Bytes) (after : List Bytes) (content : Bytes) (bits : Int) (aes : Bool)
    (hd : ForRecipients s d os bits aes) (hs : StringArray s os (before ++ b :: after))
    (hf : ∀ x ∈ before, ForOthers p key x) (hb : OpensTo p key b content) (hc : content.length < 20) :
    setKey p key s (some d) old = .error .ub := by
  rw [setKey, settings_of hd, ok_bind]
  simp only
  rw [recipientKey, openEnvelopes_some hb hs hf, ok_bind, if_pos hc]

/-- **C109 fails for unencrypted metadata.** The entry EncryptMetadata is not looked at: the file is unlocked with the
key for encrypted metadata, which is not the key of the file unless the two digests begin alike. -/
theorem C109_metadata_counterexample (p : Pkcs7) (key : PrivateKey) (s : PStore) (d : Dict) (old : Option Bytes)
    (os : List Obj) (before : List Bytes) (b : Bytes) (after : List Bytes) (content : Bytes) (bits : Nat) (aes : Bool)
    (hd : ForRecipients s d os bits aes) (hs : StringArray s os (before ++ b :: after))
    (hf : ∀ x ∈ before, ForOthers p key x) (hb : OpensTo p key b content) (hc : 20 ≤ content.length)
    (_hm : HasEntry s d (b! "EncryptMetadata") (.bool false))
    (hh : recipientFileKey (digestOf p bits aes) (content.take 20) (before ++ b :: after) false bits ≠
      recipientFileKey (digestOf p bits aes) (content.take 20) (before ++ b :: after) true bits) :
    ∃ k, setKey p key s (some d) old = .ok (true, some k) ∧
      k ≠ recipientFileKey (digestOf p bits aes) (content.take 20) (before ++ b :: after) false bits :=
  ⟨_, C109_unlock_partial p key s d old os before b after content bits aes hd hs hf hb hc, fun h => hh h.symm⟩

/-- **C109 fails for the length of the crypt filter.** Where the length of the key stands in the crypt filter, as the
standard allows, and the method is V2 or AESV2, the file is unlocked with a key of five bytes, whatever that length. -/
theorem C109_length_counterexample (p : Pkcs7) (key : PrivateKey) (s : PStore) (d cf f : Dict) (old : Option Bytes)
    (filter method : Bytes) (os : List Obj) (before : List Bytes) (b : Bytes) (after : List Bytes) (content : Bytes)
    (bits : Nat) (h1 : HasEntry s d (b! "Filter") (.name filter))
    (h2 : HasEntry s d (b! "SubFilter") (.name (b! "adbe.pkcs7.s5"))) (h3 : Absent d (b! "Length"))
    (h4 : HasEntry s d (b! "CF") (.dict cf)) (h5 : HasEntry s cf (b! "DefaultCryptFilter") (.dict f))
    (h6 : HasEntry s f (b! "CFM") (.name method)) (h7 : method = b! "V2" ∨ method = b! "AESV2")
    (_h8 : HasEntry s f (b! "Length") (.int bits)) (h9 : HasEntry s f (b! "Recipients") (.arr os))
    (hs : StringArray s os (before ++ b :: after)) (hf : ∀ x ∈ before, ForOthers p key x) (hb : OpensTo p key b content)
    (hc : 20 ≤ content.length) :
    setKey p key s (some d) old =
      .ok (true, some (recipientFileKey p.sha1 (content.take 20) (before ++ b :: after) true 40)) := by
  have hset : recipientSettings s d = .ok (os, ((40 : Nat) : Int), decide (method = b! "AESV2")) := by
    rw [recipientSettings, requiredName_of h1, ok_bind, requiredName_of h2, ok_bind, lengthEntry_absent h3, ok_bind,
      if_neg (by decide +kernel), if_pos rfl, defaultFilter, dictEntry_of_has h4, ok_bind]
    simp only
    rw [dictEntry_of_has h5, ok_bind]
    simp only
    rw [filterRecipients, nameEntry_of_has h6, ok_bind]
    simp only
    have hm : method ≠ b! "AESV3" := by rcases h7 with rfl | rfl <;> decide +kernel
    rw [if_neg hm, ok_bind, treeArray_of_has h9, ok_bind]
    simp [hm]
  rw [setKey, hset, ok_bind]
  simp only
  rw [recipientKey_of (openEnvelopes_some hb hs hf) hs hc]
  simp [digestOf]

/-- **C109 fails for files with a password.** Their dictionary has no SubFilter: asking for a key ends with an error
and not with the answer no. -/
theorem C109_password_counterexample (p : Pkcs7) (key : PrivateKey) (s : PStore) (d : Dict) (old : Option Bytes)
    (h1 : HasEntry s d (b! "Filter") (.name (b! "Standard"))) (h2 : Absent d (b! "SubFilter")) :
    setKey p key s (some d) old = .error .missing := by
  rw [setKey, recipientSettings, requiredName_of h1, ok_bind, requiredName, treeEntry, absent_iff.mp h2]
  rfl

/-- **C109 fails for other crypt filters.** A file whose crypt filter has another name than DefaultCryptFilter cannot
be unlocked with any key. -/
theorem C109_named_counterexample (p : Pkcs7) (key : PrivateKey) (s : PStore) (d cf : Dict) (old : Option Bytes)
    (filter : Bytes) (bits : Int) (h1 : HasEntry s d (b! "Filter") (.name filter))
    (h2 : HasEntry s d (b! "SubFilter") (.name (b! "adbe.pkcs7.s5"))) (h3 : HasEntry s d (b! "Length") (.int bits))
    (h4 : HasEntry s d (b! "CF") (.dict cf)) (h5 : Absent cf (b! "DefaultCryptFilter")) :
    setKey p key s (some d) old = .ok (false, old) := by
  rw [setKey, recipientSettings, requiredName_of h1, ok_bind, requiredName_of h2, ok_bind, lengthEntry_of h3, ok_bind,
    if_neg (by decide +kernel), if_pos rfl, defaultFilter, dictEntry_of_has h4, ok_bind]
  simp only
  rw [(dictEntry_none s cf _).2 h5]
  rfl

/-- **C109 fails after an envelope that does not open.** When the key cannot unwrap the first envelope that is for it,
the file is not unlocked, although a later envelope opens. -/
theorem C109_later_counterexample (p : Pkcs7) (key : PrivateKey) (s : PStore) (d : Dict) (old : Option Bytes)
    (o : Obj) (os : List Obj) (b : Bytes) (later : List Bytes) (content : Bytes) (bits : Int) (aes : Bool) (e : Envelope)
    (r : Recipient) (rs : List Recipient) (x : Bytes) (hd : ForRecipients s d (o :: os) bits aes)
    (hs : StringArray s (o :: os) (b :: later)) (hp : p.parse b = some e) (hr : e.recipients = r :: rs) (hm : Mine key r)
    (hk : key.decrypt r.wrapped = .error .throw) (hx : x ∈ later) (ho : OpensTo p key x content) :
    setKey p key s (some d) old = .ok (false, old) ∧ x ∈ later ∧ OpensTo p key x content := by
  refine ⟨?_, hx, ho⟩
  rw [setKey, settings_of hd, ok_bind]
  simp only
  rw [recipientKey, openEnvelopes, recipientString_of hs.1, ok_bind, hp]
  simp only
  rw [hr, tryRecipients, show key.contains r.issuer r.serial = .ok true from hm]
  simp only [ok_bind, if_true, hk]
  rfl

/-- **C109 fails for keys that are too short.** A key of the program (`EncryptionKey_CreateCustom`) that unwraps to
fewer bytes than the cipher has: bytes behind the buffer are used. -/
theorem C109_custom_counterexample (p : Pkcs7) (key : PrivateKey) (s : PStore) (d : Dict) (old : Option Bytes)
    (o : Obj) (os : List Obj) (b : Bytes) (later : List Bytes) (bits : Int) (aes : Bool) (e : Envelope)
    (r : Recipient) (rs : List Recipient) (n : Nat) (k : Bytes) (hd : ForRecipients s d (o :: os) bits aes)
    (hs : StringArray s (o :: os) (b :: later)) (hp : p.parse b = some e) (hr : e.recipients = r :: rs) (hm : Mine key r)
    (hn : e.keyLength = some n) (hk : key.decrypt r.wrapped = .ok k) (hl : k.length < n) :
    setKey p key s (some d) old = .error .ub := by
  rw [setKey, settings_of hd, ok_bind]
  simp only
  rw [recipientKey, openEnvelopes, recipientString_of hs.1, ok_bind, hp]
  simp only
  rw [hr, tryRecipients, show key.contains r.issuer r.serial = .ok true from hm]
  simp only [ok_bind, if_true, hk, hn]
  rw [if_pos hl]
  rfl

/-- **C109.** A key from PKCS#12 opens the envelopes that were wrapped for its certificate: where RSA gives a key of
the length of the cipher, the content is deciphered with that key. -/
theorem C109_pkcs12 (p : Pkcs7) (issuer serial : Bytes) (size : Nat) (rsa : Bytes → Option Bytes) (b : Bytes) (e : Envelope)
    (before : List Recipient) (r : Recipient) (after : List Recipient) (m : Bytes) (hp : p.parse b = some e)
    (hr : e.recipients = before ++ r :: after) (hbefore : ∀ x ∈ before, x.issuer ≠ issuer ∨ x.serial ≠ serial)
    (hi : r.issuer = issuer ∧ r.serial = serial) (hn : e.keyLength = some m.length) (hm : rsa r.wrapped = some m) :
    OpensTo p (pkcs12 issuer serial size rsa) b (p.decipher e m) ∧
    ∀ x : Recipient, (x.issuer ≠ issuer ∨ x.serial ≠ serial) ↔ Foreign (pkcs12 issuer serial size rsa) x := by
  have hfor : ∀ x : Recipient, (x.issuer ≠ issuer ∨ x.serial ≠ serial) ↔ Foreign (pkcs12 issuer serial size rsa) x := by
    intro x
    simp only [Foreign, pkcs12, Except.ok.injEq, decide_eq_false_iff_not, not_and_or]
    constructor
    · rintro (h | h)
      · exact .inl (fun e => h e.symm)
      · exact .inr (fun e => h e.symm)
    · rintro (h | h)
      · exact .inl (fun e => h e.symm)
      · exact .inr (fun e => h e.symm)
  refine ⟨⟨e, before, r, after, m.length, m ++ List.replicate (size - m.length) 0, hp, hr,
    fun x hx => (hfor x).1 (hbefore x hx), ?_, hn, ?_, by simp, by simp⟩, hfor⟩
  · simp [Mine, pkcs12, hi]
  · simp [pkcs12, hm]

/-- **C109 fails for wrapped keys of another length.** A key from PKCS#12 whose wrapped key is shorter than the keys of
the cipher is used with zeros behind it, where the envelope has to be refused. -/
theorem C109_padding_counterexample (p : Pkcs7) (issuer serial : Bytes) (size : Nat) (rsa : Bytes → Option Bytes)
    (b : Bytes) (e : Envelope) (r : Recipient) (rs : List Recipient) (n : Nat) (m : Bytes) (hp : p.parse b = some e)
    (hr : e.recipients = r :: rs) (hi : r.issuer = issuer ∧ r.serial = serial) (hn : e.keyLength = some n)
    (hm : rsa r.wrapped = some m) (hl : m.length < n) (hsize : n ≤ size) :
    OpensTo p (pkcs12 issuer serial size rsa) b (p.decipher e (m ++ List.replicate (n - m.length) 0)) := by
  refine ⟨e, [], r, rs, n, m ++ List.replicate (size - m.length) 0, hp, hr, by simp, ?_, hn, ?_, ?_, ?_⟩
  · simp [Mine, pkcs12, hi]
  · simp [pkcs12, hm]
  · simp; omega
  · rw [List.take_append, List.take_of_length_le (by omega), List.take_replicate, Nat.min_eq_left (by omega)]

/-! ### Example -/

/-- An envelope for one recipient; the cipher xors with the first byte of the key. -/
def sampleEnvelope : Envelope := ⟨[⟨b! "CA", [1], [9, 9]⟩, ⟨b! "CA", [2], [7, 7]⟩], some 1, List.replicate 24 5⟩

/-- Only the string "E" is an envelope. -/
def samplePkcs7 : Pkcs7 :=
  ⟨fun b => if b = b! "E" then some sampleEnvelope else none, fun e k => e.content.map (· ^^^ k.headD 0),
    fun b => b.reverse, fun b => b⟩

def sampleRecipients : Dict :=
  [(b! "Filter", .name (b! "Adobe.PubSec")), (b! "Length", .int 128), (b! "Recipients", .arr [.lit (b! "X"), .hex (b! "E")]),
   (b! "SubFilter", .name (b! "adbe.pkcs7.s4"))]

def samplePrivate : PrivateKey := pkcs12 (b! "CA") [2] 4 (fun c => some [c.headD 0 + 1])

example : ForRecipients (fun _ => .null) sampleRecipients [.lit (b! "X"), .hex (b! "E")] (128 : Nat) false :=
  .plain (b! "Adobe.PubSec") (b! "adbe.pkcs7.s4") _ _ ⟨by simp, .inl rfl⟩ ⟨by simp, .inl rfl⟩ (.inr rfl)
    ⟨by simp, .inl rfl⟩ ⟨by simp, .inl rfl⟩

example : OpensTo samplePkcs7 samplePrivate (b! "E") (List.replicate 24 13) :=
  ⟨sampleEnvelope, [⟨b! "CA", [1], [9, 9]⟩], ⟨b! "CA", [2], [7, 7]⟩, [], 1, [8, 0, 0, 0], rfl, rfl,
    by simp [Foreign, samplePrivate, pkcs12], rfl, rfl, rfl, by simp, by decide +kernel⟩

example : setKey samplePkcs7 samplePrivate (fun _ => .null) (some sampleRecipients) none =
    .ok (true, some ([69, 88] ++ List.replicate 14 13)) := by decide +kernel

end VPdf
