import Verif.Props.Encryption

/-! # Requested settings and renumbered objects (C66, C67, C68) -/
namespace VPdf
open Spec (Lawful)

/-! ## C66 -/

theorem permission_step (flags p : BitVec 32) (i j : Nat) (hi : i < 32) :
    (if flags &&& BitVec.twoPow 32 i ≠ 0 then p &&& ~~~BitVec.twoPow 32 i else p).getLsbD j =
      (p.getLsbD j && !(decide (i = j) && flags.getLsbD i)) := by
  have h : flags &&& BitVec.twoPow 32 i ≠ 0 ↔ flags.getLsbD i = true := by
    rw [BitVec.and_twoPow]
    by_cases h : flags.getLsbD i = true
    · simp only [h, if_true, ne_eq, iff_true]
      intro e
      have := congrArg (BitVec.getLsbD · i) e
      simp [hi] at this
    · simp [h]
  by_cases hf : flags.getLsbD i = true
  · rw [if_pos (h.mpr hf), hf]
    by_cases hj : j < 32
    · have e : decide (j = i) = decide (i = j) := by simp [eq_comm]
      simp [hj, e]
    · rw [BitVec.getLsbD_of_ge _ _ (by omega), BitVec.getLsbD_of_ge p _ (by omega)]
      rfl
  · rw [if_neg (fun x => hf (h.mp x))]
    simp [hf]

/-- C66, what is true: the `P` entry holds the complement of the requested permissions; all other bits are set. -/
theorem C66_inverted_partial (flags : BitVec 32) (j : Nat) (hj : j < 32) :
    (permissionInteger flags).getLsbD j = !(decide (j ∈ [2, 3, 4, 5, 8, 9, 10, 11]) && flags.getLsbD j) := by
  have e : [(4 : BitVec 32), 8, 16, 32, 256, 512, 1024, 2048] =
      [2, 3, 4, 5, 8, 9, 10, 11].map (BitVec.twoPow 32) := by decide
  have gen : ∀ (is : List Nat) (p : BitVec 32), (∀ i ∈ is, i < 32) →
      ((is.map (BitVec.twoPow 32)).foldl (fun p f => if flags &&& f ≠ 0 then p &&& ~~~f else p) p).getLsbD j =
        (p.getLsbD j && !(decide (j ∈ is) && flags.getLsbD j)) := by
    intro is
    induction is with
    | nil => intro p _; simp
    | cons i is ih =>
      intro p h
      rw [List.map_cons, List.foldl_cons, ih _ (fun x hx => h x (by simp [hx])), permission_step flags p i j (h i (by simp))]
      by_cases hij : i = j
      · subst hij; cases p.getLsbD i <;> cases flags.getLsbD i <;> simp
      · have : ¬ j = i := fun h => hij h.symm
        simp [hij, this]
  unfold permissionInteger
  rw [e, gen _ _ (by decide), show (-1 : BitVec 32) = BitVec.allOnes 32 by decide, BitVec.getLsbD_allOnes]
  simp only [hj, decide_true, Bool.true_and]

/-- C66 fails for every permission and every request: it is granted exactly if it was not requested.  (The bits of the
permissions in the `P` entry are 3 to 6 and 9 to 12, counted from 1; a bit that is set grants the permission.) -/
theorem C66_counterexample (flags : BitVec 32) (j : Nat) (hj : j ∈ [2, 3, 4, 5, 8, 9, 10, 11]) :
    (permissionInteger flags).getLsbD j = true ↔ flags.getLsbD j = false := by
  have h32 : j < 32 := by simp at hj; omega
  rw [C66_inverted_partial flags j h32]
  simp [hj]

/-- Requesting no permission at all grants them all. -/
example : permissionInteger 0 = -1 ∧ permissionInteger 4 = -5 := by decide

/-! ## C67 -/

/-- C67 fails for all settings: a request for AES gives the same dictionary and key as a request for RC4, and strings and
streams are encrypted with RC4. -/
theorem C67_counterexample (k : Crypto) (s : EncSettings) (id : Bytes) (entry : Nat × Nat) (rnd : Bytes) :
    addEncryption k { s with algorithm := .aes } id entry rnd = addEncryption k { s with algorithm := .rc4 } id entry rnd ∧
    ∀ d key, addEncryption k { s with algorithm := .aes } id entry rnd = .ok (d, key) →
      defaultAlgorithm d d.stringFilter = .ok .rc4 ∧ defaultAlgorithm d d.streamFilter = .ok .rc4 := by
  have e : addEncryption k { s with algorithm := .aes } id entry rnd = addEncryption k { s with algorithm := .rc4 } id entry rnd := by
    unfold addEncryption ownerKey userKey
    rfl
  refine ⟨e, ?_⟩
  intro d key h
  unfold addEncryption at h
  split at h
  · cases h
  · dsimp only at h
    obtain ⟨o, _, h⟩ := except_bind_ok h
    obtain ⟨u, _, h⟩ := except_bind_ok h
    obtain ⟨p, _, h⟩ := except_bind_ok h
    cases p with
    | none => cases h
    | some p =>
      have hd := (Prod.mk.inj (Except.ok.inj h)).1
      have hv : ¬ (d.version = 4 ∨ d.version = 5) := by
        rw [← hd]
        show ¬ ((if s.keyLength > 40 then (2 : Int) else 1) = 4 ∨ (if s.keyLength > 40 then (2 : Int) else 1) = 5)
        split <;> omega
      unfold defaultAlgorithm
      rw [if_neg hv, if_neg hv]
      exact ⟨rfl, rfl⟩

/-- There are such documents. -/
example : ∃ d key, addEncryption sampleCrypto ⟨b! "owner", b! "user", .aes, 128, -4⟩ (b! "id") (9, 0) [] = .ok (d, key) ∧
    defaultAlgorithm d d.streamFilter = .ok .rc4 := by
  obtain ⟨d, key, h, _⟩ := C46_user_accepted_partial sampleCrypto_lawful ⟨b! "owner", b! "user", .aes, 128, -4⟩ (9, 0) []
    (id := b! "id") (by decide) (by decide) (by decide) (.inr rfl) (by decide) (by decide)
  exact ⟨d, key, h, ((C67_counterexample sampleCrypto ⟨b! "owner", b! "user", .aes, 128, -4⟩ (b! "id") (9, 0) []).2 d key h).2⟩

/-! ## C68 -/

theorem xorBytes_inj : ∀ (a s t : Bytes), s.length = a.length → t.length = a.length → xorBytes a s = xorBytes a t → s = t
  | [], s, t, hs, ht, _ => by
    rw [List.length_eq_zero_iff.mp hs, List.length_eq_zero_iff.mp ht]
  | x :: a, [], _, hs, _, _ => by simp at hs
  | x :: a, _ :: _, [], _, ht, _ => by simp at ht
  | x :: a, y :: s, z :: t, hs, ht, h => by
    simp only [xorBytes, List.zipWith_cons_cons, List.cons.injEq] at h
    have h1 : y = z := by
      have := congrArg (x ^^^ ·) h.1
      simpa [← UInt8.xor_assoc] using this
    rw [h1, xorBytes_inj a s t (by simpa using hs) (by simpa using ht) h.2]

/-- C68 for documents encrypted with RC4: a stream that was not accessed and gets another number when the document is
saved is read correctly afterwards exactly if the two numbers happen to give the same key stream.  Missing: it should
always be read correctly. -/
theorem C68_renumbered_partial {k : Crypto} (hk : Lawful k) {F F' : SecureFile} {d : EncDict} {key : Bytes} (hF : Reopened k F F' d key)
    (hv : d.version ≠ 4 ∧ d.version ≠ 5) {old number : Nat} (hn : number ≠ 0) (hent : F.entry number 0 = some false)
    (hent' : F'.entry number 0 = some false) (hd : d.entry ≠ some (number, 0))
    (m : Overflow) (c : Codecs) (dirty : Bool) {s : StreamState} {r iv body stored : Bytes} (r' : Bytes)
    (hi : iv.length = 16) (hb : body ≠ []) (hlen : body.length + 32 < 2147483647) (hc : usesCrypt s.filter = false) (hs : s.dirty = false)
    (hun : s.decrypted = none) (hx : s.exempt = false)
    (hraw : computeRC4 k (computeObjectKey k key old 0 .rc4) (computeObjectKey k key old 0 .rc4).length body = .ok s.raw)
    (h : bodyEncoded m c k F dirty s number 0 r iv = .ok stored) :
    bodyDecrypted k F' (reloaded s stored) number 0 r' = .ok body ↔
      k.keystream (computeObjectKey k key old 0 .rc4) body.length =
        k.keystream (computeObjectKey k key number 0 .rc4) body.length := by
  have ha : ∀ f, defaultAlgorithm d f = .ok .rc4 := by
    intro f; unfold defaultAlgorithm; rw [if_neg (fun h => h.elim hv.1 hv.2)]
  have e1 : F.isEncrypted = true := by simp [SecureFile.isEncrypted, hF.written]
  have hl := computeRC4_length hk hraw
  have hrne : s.raw ≠ [] := by
    intro e
    have h0 : body.length = 0 := by rw [← hl, e]; rfl
    exact hb (List.eq_nil_of_length_eq_zero h0)
  have hkl : ∀ n, (computeObjectKey k key n 0 .rc4).length < 2147483647 := by
    intro n; rw [computeObjectKey_length hk]; exact Nat.lt_of_le_of_lt (Nat.min_le_right _ _) (by decide)
  have hdec : bodyDecrypted k F s number 0 r =
      .ok (xorBytes s.raw (k.keystream (computeObjectKey k key number 0 .rc4) s.raw.length)) := by
    have hb' : bodyDecrypted k F s number 0 r = decryptStream k F number 0 r s.raw := by
      unfold bodyDecrypted
      rw [hun, hx, e1]
      dsimp only
      rw [if_neg (by simp)]
      cases hf : s.filter with
      | absent => rfl
      | null => rfl
      | one u =>
        rw [hf] at hc
        simp only [usesCrypt, decide_eq_false_iff_not] at hc
        dsimp only
        rw [if_neg hc]
      | many us =>
        rw [hf] at hc
        simp only [usesCrypt] at hc
        dsimp only
        rw [List.find?_eq_none.mpr (by simpa using hc)]
    rw [hb']
    unfold decryptStream
    rw [hF.written]
    dsimp only
    rw [ha, ok_bind]
    unfold decryptAlg
    rw [hF.written]
    dsimp only
    rw [if_neg hrne, if_neg hd, hent]
    dsimp only
    rw [hF.writtenKey, ok_bind, if_neg (by simp), if_neg (by simp),
      computeRC4_ok k (Nat.le_refl _) (hkl _) (by omega), List.take_length]
  have hlen2 : (xorBytes s.raw (k.keystream (computeObjectKey k key number 0 .rc4) s.raw.length)).length + 32 < 2147483647 := by
    rw [xorBytes_length, hk.keystream_length]; omega
  obtain ⟨tail, ht, hres⟩ := C55_unchanged_streams_partial hk hF hn hent' m c dirty r' hi hlen2 hc hs hdec h
  have htail : tail = [] := by
    unfold streamAppended at ht
    rw [hx, if_neg (by simp [hd])] at ht
    obtain ⟨alg, h1, h2⟩ := ht
    rw [ha] at h1
    rw [h2, ← Except.ok.inj h1]
    simp [appended]
  rw [hres, htail, List.append_nil]
  rw [computeRC4_ok k (Nat.le_refl _) (hkl _) (by omega), List.take_length] at hraw
  have hraw := Except.ok.inj hraw
  rw [← hraw, xorBytes_length, hk.keystream_length, Nat.min_self]
  constructor
  · intro e
    have e := Except.ok.inj e
    have e2 : xorBytes (xorBytes body (k.keystream (computeObjectKey k key old 0 .rc4) body.length))
        (k.keystream (computeObjectKey k key old 0 .rc4) body.length) = body :=
      xorBytes_cancel _ _ (by rw [hk.keystream_length])
    exact xorBytes_inj _ _ _ (by simp [xorBytes_length, hk.keystream_length])
      (by simp [xorBytes_length, hk.keystream_length]) (e2.trans e.symm)
  · intro e
    rw [e, xorBytes_cancel _ _ (by rw [hk.keystream_length])]

/-- The stream of object 5 as stored. -/
def sampleMoved : StreamState :=
  { filter := .absent
    raw := xorBytes (b! "page contents")
      (Spec.rc4Stream (computeObjectKey sampleCrypto (b! "0123456789abcdef") 5 0 .rc4) (b! "page contents").length)
    decrypted := none, decoded := none, dirty := false, exempt := false }

set_option maxRecDepth 100000 in
/-- C68 fails: the contents of object 5, which becomes object 4, are lost. -/
theorem C68_counterexample :
    bodyDecrypted sampleCrypto (sampleSecure none 2) sampleMoved 5 0 [] = .ok (b! "page contents") ∧
    ((bodyEncoded .wrap toyCodecs sampleCrypto (sampleSecure none 2) false sampleMoved 4 0 [] (b! "fedcba9876543210")).bind
      fun stored => bodyDecrypted sampleCrypto (sampleSecure none 2) (reloaded sampleMoved stored) 4 0 []) ≠
      .ok (b! "page contents") := by
  decide +kernel

/-- The hypotheses of the general statement are met by this stream. -/
example : computeRC4 sampleCrypto (computeObjectKey sampleCrypto (b! "0123456789abcdef") 5 0 .rc4)
    (computeObjectKey sampleCrypto (b! "0123456789abcdef") 5 0 .rc4).length (b! "page contents") = .ok sampleMoved.raw := by
  rw [computeRC4_ok _ (Nat.le_refl _) (by rw [computeObjectKey_length sampleCrypto_lawful]; decide) (by decide), List.take_length]
  rfl

end VPdf
