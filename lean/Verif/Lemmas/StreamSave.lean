import Verif.Model.StreamSave
import Verif.Spec.StreamSave
import Verif.Props.Encryption
import Verif.Lemmas.Writer

/-! Lemmas on measuring and writing a stream. -/
namespace VPdf
open Spec (Lawful LengthIs)

/-- The size of data encrypted with AES. -/
def aesSize (n : Nat) : Nat :=
  if n = 0 then 0 else 16 + (n + addedBytes n) + (16 - (n + addedBytes n) % 16)

theorem aesEncrypt_length {k : Crypto} (hk : Lawful k) {key iv d x : Bytes} {n : Nat} (hi : iv.length = 16)
    (h : aesEncrypt k key n iv d = .ok x) : x.length = aesSize d.length := by
  unfold aesEncrypt at h
  unfold aesSize
  by_cases hd : d = []
  · rw [if_pos hd] at h
    rw [← Except.ok.inj h, hd]; rfl
  · rw [if_neg hd] at h
    rw [if_neg (by rw [List.length_eq_zero_iff]; exact hd)]
    dsimp only at h
    split at h
    · cases h
    · split at h
      · cases h
      · obtain ⟨_, _, h⟩ := except_bind_ok h
        split at h
        · cases h
        · rw [← Except.ok.inj h, List.length_append, evpEncrypt_length (hk.blockEnc_length _) _ _ hi, addPadding_length, hi]
          omega

/-- The size of data encrypted with an algorithm. -/
def algSize (alg : Algorithm) (n : Nat) : Nat := if alg = .aes then aesSize n else n

theorem encryptAlg_length {k : Crypto} (hk : Lawful k) {F : SecureFile} {d : EncDict} {alg : Algorithm} {n g : Nat}
    {r iv data x : Bytes} (hi : iv.length = 16) (hF : F.dict = some d) (h : encryptAlg k F alg n g r iv data = .ok x) :
    x.length = if d.entry.isSome ∧ (n = 0 ∨ d.entry = some (n, g)) then data.length else algSize alg data.length := by
  unfold encryptAlg at h
  rw [hF] at h
  dsimp only at h
  obtain ⟨key, _, h⟩ := except_bind_ok h
  by_cases he : d.entry.isSome ∧ (n = 0 ∨ d.entry = some (n, g))
  · rw [if_pos he] at h ⊢
    rw [← Except.ok.inj h]
  · rw [if_neg he] at h ⊢
    unfold algSize
    by_cases ha : alg = .aes
    · rw [if_pos ha]
      split at h
      · exact aesEncrypt_length hk hi h
      · exact aesEncrypt_length hk hi h
    · rw [if_neg ha]
      rw [if_neg (fun x => ha x.2), if_neg ha] at h
      exact computeRC4_length hk h

theorem encryptStream_length {k : Crypto} (hk : Lawful k) {F : SecureFile} {n g : Nat} {r iv iv' data x y : Bytes}
    (hi : iv.length = 16) (hi' : iv'.length = 16) (h : encryptStream k F n g r iv data = .ok x)
    (h' : encryptStream k F n g r iv' data = .ok y) : x.length = y.length := by
  unfold encryptStream at h h'
  cases hF : F.dict with
  | none => rw [hF] at h h'; cases h; cases h'; rfl
  | some d =>
    rw [hF] at h h'
    dsimp only at h h'
    obtain ⟨alg, ha, h⟩ := except_bind_ok h
    rw [ha, ok_bind] at h'
    rw [encryptAlg_length hk hi hF h, encryptAlg_length hk hi' hF h']

theorem streamEncrypt_length {k : Crypto} (hk : Lawful k) {F : SecureFile} {e : Bool} {n g : Nat} {r iv iv' data x y : Bytes}
    (hi : iv.length = 16) (hi' : iv'.length = 16) (h : streamEncrypt k F e n g r iv data = .ok x)
    (h' : streamEncrypt k F e n g r iv' data = .ok y) : x.length = y.length := by
  unfold streamEncrypt at h h'
  split at h
  · next hc => rw [if_pos hc] at h'; rw [← Except.ok.inj h, ← Except.ok.inj h']
  · next hc => rw [if_neg hc] at h'; exact encryptStream_length hk hi hi' h h'

theorem encodeMany_crypt (c : Codecs) (k : Crypto) (F : SecureFile) (e : Bool) (n g : Nat) (r iv : Bytes) :
    ∀ (us : List FilterUse) (d x : Bytes), encodeMany c k F e n g r iv us d = .ok x →
      us.any (fun u => u.filter = .crypt) = false
  | [], _, _, _ => rfl
  | u :: us, d, x, h => by
    rw [encodeMany] at h
    by_cases hu : u.filter = .crypt
    · rw [if_pos hu] at h
      obtain ⟨d1, _, h⟩ := except_bind_ok h
      obtain ⟨d2, h2, h⟩ := except_bind_ok h
      rw [hu] at h2
      cases h2
    · rw [if_neg hu] at h
      obtain ⟨d1, _, h⟩ := except_bind_ok h
      obtain ⟨d2, h2, h⟩ := except_bind_ok h
      have := encodeMany_crypt c k F e n g r iv us d2 x h
      rw [List.any_cons, this, Bool.or_false, decide_eq_false_iff_not]
      exact hu

theorem bodyEncoded_length {m : Overflow} {c : Codecs} {k : Crypto} (hk : Lawful k) {F : SecureFile} {ed : Bool} {s : StreamState}
    {n g : Nat} {r iv iv' x y : Bytes} (hi : iv.length = 16) (hi' : iv'.length = 16)
    (h : bodyEncoded m c k F ed s n g r iv = .ok x) (h' : bodyEncoded m c k F ed s n g r iv' = .ok y) : x.length = y.length := by
  unfold bodyEncoded at h h'
  split at h
  · next hc => rw [if_pos hc] at h'; rw [← Except.ok.inj h, ← Except.ok.inj h']
  · next hc =>
    rw [if_neg hc] at h'
    split at h
    · next hd =>
      rw [if_pos hd] at h'
      obtain ⟨b, hb, h⟩ := except_bind_ok h
      rw [hb, ok_bind] at h'
      exact streamEncrypt_length hk hi hi' h h'
    · next hd =>
      rw [if_neg hd] at h'
      obtain ⟨b, hb, h⟩ := except_bind_ok h
      rw [hb, ok_bind] at h'
      cases hf : s.filter with
      | absent => rw [hf] at h h'; exact streamEncrypt_length hk hi hi' h h'
      | null => rw [hf] at h h'; exact streamEncrypt_length hk hi hi' h h'
      | one u =>
        rw [hf] at h h'
        dsimp only at h h'
        by_cases hu : u.filter = .crypt
        · rw [if_pos hu] at h h'
          cases hh : u.handler with
          | none => rw [hh] at h; cases h
          | some name =>
            rw [hh] at h h'
            dsimp only at h h'
            split at h
            · next hc => rw [if_pos hc] at h'; rw [← Except.ok.inj h, ← Except.ok.inj h']
            · next hc =>
              rw [if_neg hc] at h'
              unfold encryptNamed at h h'
              cases hF : F.dict with
              | none => rw [hF] at h h'; rw [← Except.ok.inj h, ← Except.ok.inj h']
              | some d =>
                rw [hF] at h h'
                rw [encryptAlg_length hk hi hF h, encryptAlg_length hk hi' hF h']
        · rw [if_neg hu] at h h'
          obtain ⟨e, he, h⟩ := except_bind_ok h
          rw [he, ok_bind] at h'
          exact streamEncrypt_length hk hi hi' h h'
      | many us =>
        rw [hf] at h h'
        dsimp only at h h'
        have hp := encodeMany_crypt c k F _ _ _ _ _ _ _ _ h
        rw [encodeMany_plain c k F _ _ _ _ _ us _ hp] at h h'
        rw [h] at h'
        rw [Except.ok.inj h']

theorem lengthIs_asInt {resolve : Nat → Nat → Res Int} {d : Dict} {n : Nat} (h : LengthIs resolve d n) :
    ∃ o, mapFind (b! "Length") d = some o ∧ asInt ⟨[], true, resolve⟩ o = .ok (n : Int) := by
  rcases h with h | ⟨i, p, h, hr⟩ | ⟨a, b, h, hr⟩
  · exact ⟨_, (valueAt_eq _ _).symm.trans h, rfl⟩
  · exact ⟨_, (valueAt_eq _ _).symm.trans h, congrArg Except.ok hr⟩
  · exact ⟨_, (valueAt_eq _ _).symm.trans h, hr⟩

theorem recalc_same {resolve : Nat → Nat → Res Int} {d : Dict} {n : Nat} (h : LengthIs resolve d n) :
    lengthChanges resolve n d = .ok false ∧ recalcLength resolve n d = .ok d := by
  obtain ⟨o, h1, h2⟩ := lengthIs_asInt h
  unfold lengthChanges recalcLength
  rw [h1]
  dsimp only
  rw [h2, ok_bind, ok_bind]
  simp only [show ¬ ((n : Int) < 0) by omega, if_false, ne_eq, not_true, decide_false, if_true]
  exact ⟨rfl, rfl⟩

theorem recalc_other {resolve : Nat → Nat → Res Int} {d : Dict} {n size : Nat} (h : LengthIs resolve d n) (hn : n ≠ size) :
    lengthChanges resolve size d = .ok true ∧
      recalcLength resolve size d = .ok (mapInsert (b! "Length") (.int size) (mapErase (b! "Length") d)) := by
  obtain ⟨o, h1, h2⟩ := lengthIs_asInt h
  unfold lengthChanges recalcLength
  rw [h1]
  dsimp only
  rw [h2, ok_bind, ok_bind]
  have : (n : Int) ≠ size := by omega
  simp only [show ¬ ((n : Int) < 0) by omega, if_false, ne_eq, this, not_false_eq_true, decide_true]
  exact ⟨rfl, rfl⟩

theorem asInt_lengthIs {resolve : Nat → Nat → Res Int} {d : Dict} {n : Nat} {o : Obj} (h : mapFind (b! "Length") d = some o)
    (ho : asInt ⟨[], true, resolve⟩ o = .ok (n : Int)) : LengthIs resolve d n := by
  rw [← valueAt_eq] at h
  cases o with
  | int i => exact .inl (by rw [h, Except.ok.inj ho])
  | real i p => exact .inr (.inl ⟨i, p, h, Except.ok.inj ho⟩)
  | ref a b => exact .inr (.inr ⟨a, b, h, ho⟩)
  | _ => cases ho

/-- The decrypted body does not depend on whether it is known already. -/
theorem bodyDecrypted_fresh {m : Overflow} {c : Codecs} {k : Crypto} {F : SecureFile} {s : StreamState} {n g : Nat} {r : Bytes}
    (h : Spec.CachesAgree m c k F s n g r) :
    bodyDecrypted k F s n g r = bodyDecrypted k F { s with decrypted := none, decoded := none } n g r := by
  cases hs : s.decrypted with
  | some b => rw [h.decrypted b hs]; unfold bodyDecrypted; rw [hs]
  | none => unfold bodyDecrypted; rw [hs]

theorem streamBody_fresh {m : Overflow} {c : Codecs} {k : Crypto} {F : SecureFile} {s : StreamState} {n g : Nat} {r : Bytes}
    (h : Spec.CachesAgree m c k F s n g r) :
    streamBody m c k F s n g r = streamBody m c k F { s with decrypted := none, decoded := none } n g r := by
  cases hs : s.decoded with
  | some b => rw [h.decoded b hs]; unfold streamBody; rw [hs]
  | none =>
    unfold streamBody
    rw [hs, bodyDecrypted_fresh h]

/-- Decrypting and encrypting again without AES gives the stored bytes. -/
theorem decryptAlg_encryptAlg {k : Crypto} (hk : Lawful k) {F : SecureFile} {d : EncDict} {alg : Algorithm} {n g : Nat}
    {r r' iv data b x : Bytes} (hF : F.dict = some d) (ha : alg ≠ .aes) (hn : n ≠ 0) (hent : F.entry n g = some false)
    (h : decryptAlg k F alg n g r data = .ok b) (h' : encryptAlg k F alg n g r' iv b = .ok x) : x = data := by
  unfold decryptAlg at h
  unfold encryptAlg at h'
  rw [hF] at h h'
  dsimp only at h h'
  obtain ⟨key, hkey, h'⟩ := except_bind_ok h'
  by_cases hd : data = []
  · rw [if_pos hd] at h
    cases Except.ok.inj h
    split at h'
    · rw [← Except.ok.inj h', hd]
    · rw [if_neg (fun x => ha x.2)] at h'
      rw [hd]; exact List.length_eq_zero_iff.mp (computeRC4_length hk h')
  · rw [if_neg hd] at h
    by_cases he : d.entry = some (n, g)
    · rw [if_pos he] at h
      rw [if_pos ⟨by rw [he]; rfl, .inr he⟩] at h'
      rw [← Except.ok.inj h', ← Except.ok.inj h]
    · rw [if_neg he, hent] at h
      rw [if_neg (by rintro ⟨_, h2 | h2⟩; exacts [hn h2, he h2])] at h'
      dsimp only at h
      obtain ⟨key', hkey', h⟩ := except_bind_ok h
      rw [fileKey_rnd hk F d r r', hkey] at hkey'
      cases Except.ok.inj hkey'
      rw [if_neg (fun x => ha x.2), if_neg ha] at h h'
      have := computeRC4_twice hk h
      rw [this] at h'
      exact (Except.ok.inj h').symm

end VPdf
