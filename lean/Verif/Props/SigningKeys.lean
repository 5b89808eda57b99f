import Verif.Spec.SigningKeys
import Verif.Props.Recipients
/-
  C110: keys that sign.
-/
namespace VPdf
open Spec

/-! ### Keys of the program -/

theorem custom_updates (c : SignCallbacks) : ∀ (ranges : List Bytes) (h : List SignEvent),
    signUpdates (customKey c) ranges h = (.ok (), h ++ ranges.map .update) ∨
    ∃ n, n < ranges.length ∧ signUpdates (customKey c) ranges h = (.error .throw, h ++ (ranges.take (n + 1)).map .update)
  | [], h => .inl (by simp [signUpdates])
  | b :: bs, h => by
    rw [signUpdates]
    simp only [customKey, callbackAnswer]
    cases hu : c.update h b with
    | false =>
      right
      exact ⟨0, by simp, by simp⟩
    | true =>
      simp only [if_true]
      rcases custom_updates c bs (h ++ [.update b]) with h1 | ⟨n, hn, h1⟩
      · left
        simp only [customKey, callbackAnswer] at h1
        rw [h1]
        simp
      · right
        simp only [customKey, callbackAnswer] at h1
        refine ⟨n + 1, by simpa using hn, ?_⟩
        rw [h1]
        simp

theorem custom_updates_ok (c : SignCallbacks) (hc : ∀ h b, c.update h b = true) (ranges : List Bytes) (h : List SignEvent) :
    signUpdates (customKey c) ranges h = (.ok (), h ++ ranges.map .update) := by
  induction ranges generalizing h with
  | nil => simp [signUpdates]
  | cons b bs ih =>
    rw [signUpdates]
    simp only [customKey, callbackAnswer, hc, if_true] at ih ⊢
    rw [ih]
    simp

/-- **C110.** A key of the program gets the calls of one signing session, whatever its callbacks answer: all of them in
their order, or up to the first failure, with one cleanup at the end if the first call has succeeded.  A signature that
is written is the one the callback has delivered after all ranges, it fits, and no callback has failed. -/
theorem C110_custom (c : SignCallbacks) (digest : Nat) (ranges : List Bytes) (room : Nat) (h : List SignEvent)
    (hd : digest ≤ 12) :
    ∃ calls, (signWithKey (customKey c) digest ranges room h).2 = h ++ calls ∧ SigningSession digest ranges calls ∧
      (calls = [.init digest] ↔ c.init h digest = false) ∧
      ∀ b, (signWithKey (customKey c) digest ranges room h).1 = .signature b →
        calls = .init digest :: ranges.map .update ++ [.final, .cleanup] ∧
        c.final (h ++ .init digest :: ranges.map .update) = (true, some b) ∧ SignatureFits room b ∧
        c.cleanup (h ++ .init digest :: ranges.map .update ++ [.final]) = true := by
  have hi : (customKey c).init digest h = (callbackAnswer (c.init h digest), h ++ [.init digest]) := by
    simp [customKey, show ¬ 12 < digest by omega]
  cases hin : c.init h digest with
  | false =>
    refine ⟨[.init digest], ?_, .refused, by simp, ?_⟩ <;> rw [signWithKey, hi, hin] <;> simp [callbackAnswer]
  | true =>
    have hs : signWithKey (customKey c) digest ranges room h =
        signGuard (customKey c) (signBody (customKey c) ranges room (h ++ [.init digest])) := by
      rw [signWithKey, hi, hin]; rfl
    rw [hs]
    rcases custom_updates c ranges (h ++ [.init digest]) with h1 | ⟨n, hn, h1⟩
    · refine ⟨.init digest :: ranges.map .update ++ [.final, .cleanup], ?_, .complete, by simp, ?_⟩
      · rw [signBody, h1]
        simp only [customKey, signGuard, callbackAnswer]
        cases hf : c.final (h ++ [.init digest] ++ ranges.map .update) with
        | mk ok b =>
          cases ok <;> cases b <;> simp only <;>
            cases c.cleanup (h ++ [.init digest] ++ ranges.map .update ++ [.final]) <;> simp <;> (split <;> simp)
      · intro b hb
        refine ⟨rfl, ?_⟩
        rw [signBody, h1] at hb
        simp only [customKey, signGuard, callbackAnswer] at hb
        rw [show h ++ .init digest :: ranges.map .update = h ++ [.init digest] ++ ranges.map .update by simp]
        generalize h ++ [.init digest] ++ ranges.map .update = H at hb ⊢
        cases hf : c.final H with
        | mk ok o =>
          rw [hf] at hb
          cases hc : c.cleanup (H ++ [.final]) with
          | false => cases ok <;> cases o <;> simp [hc] at hb
          | true =>
            cases ok with
            | false => cases o <;> simp [hc] at hb
            | true =>
              cases o with
              | none => simp [hc] at hb
              | some x =>
                simp only [hc, if_true] at hb
                by_cases hr : 2 * x.length + 2 > room
                · simp [hr] at hb
                · rw [if_neg hr] at hb
                  simp only [SignEnd.signature.injEq] at hb
                  subst hb
                  exact ⟨rfl, by unfold SignatureFits; omega, rfl⟩
    · refine ⟨.init digest :: (ranges.take (n + 1)).map .update ++ [.cleanup], ?_, .stopped n hn, by simp, ?_⟩
      · rw [signBody, h1]
        simp only [customKey, signGuard, callbackAnswer]
        cases c.cleanup _ <;> simp
      · intro b hb
        rw [signBody, h1] at hb
        simp only [customKey, signGuard, callbackAnswer] at hb
        generalize h ++ [.init digest] ++ (ranges.take (n + 1)).map .update = H at hb
        cases hc : c.cleanup H <;> simp [hc] at hb

/-- **C110.** If no callback fails and the signature fits, it is the signature of the file. -/
theorem C110_custom_signs (c : SignCallbacks) (digest : Nat) (ranges : List Bytes) (room : Nat) (h : List SignEvent)
    (b : Bytes) (hd : digest ≤ 12) (h1 : c.init h digest = true) (h2 : ∀ h b, c.update h b = true)
    (h3 : c.final (h ++ .init digest :: ranges.map .update) = (true, some b)) (h4 : ∀ h, c.cleanup h = true)
    (hr : SignatureFits room b) : (signWithKey (customKey c) digest ranges room h).1 = .signature b := by
  have hi : (customKey c).init digest h = (.ok (), h ++ [.init digest]) := by
    simp [customKey, show ¬ 12 < digest by omega, h1, callbackAnswer]
  rw [signWithKey, hi]
  simp only
  rw [signBody, custom_updates_ok c h2]
  have h3' : c.final (h ++ [.init digest] ++ ranges.map .update) = (true, some b) := by simpa using h3
  simp only [customKey, signGuard, callbackAnswer, h4, h3', if_true]
  rw [if_neg (by unfold SignatureFits at hr; omega)]

/-- **C110 fails for a cleanup that fails.** A callback that reports an error from the cleanup ends the whole program. -/
theorem C110_cleanup_counterexample (c : SignCallbacks) (digest : Nat) (ranges : List Bytes) (room : Nat)
    (h : List SignEvent) (hd : digest ≤ 12) (h1 : c.init h digest = true) (h2 : ∀ h, c.cleanup h = false) :
    (signWithKey (customKey c) digest ranges room h).1 = .terminated := by
  have hi : (customKey c).init digest h = (.ok (), h ++ [.init digest]) := by
    simp [customKey, show ¬ 12 < digest by omega, h1, callbackAnswer]
  rw [signWithKey, hi]
  simp only
  rw [signGuard]
  simp [customKey, callbackAnswer, h2]

/-! ### Keys from PKCS#12 -/

theorem pkcs12_updates (l : Pkcs12Lib) : ∀ (ranges : List Bytes) (s : Pkcs12State) (x : Bytes), s.bio = some x →
    signUpdates (pkcs12Signing l) ranges s = (.ok (), { s with bio := some (x ++ ranges.flatten) })
  | [], s, x, h => by
    obtain ⟨a, b, c⟩ := s
    simp only at h
    simp [signUpdates, h]
  | b :: bs, s, x, h => by
    rw [signUpdates]
    simp only [pkcs12Signing, h]
    have ih := pkcs12_updates l bs { s with bio := some (x ++ b) } (x ++ b) rfl
    simp only [pkcs12Signing] at ih
    rw [ih]
    simp

theorem pkcs12_sign (l : Pkcs12Lib) (d : Nat) (ranges : List Bytes) (room : Nat) (s : Pkcs12State) (hs : s.loaded = true) :
    signWithKey (pkcs12Signing l) d ranges room s =
      if l.known d ∧ l.accepts d then
        ((l.sign d ranges.flatten).elim (.failed .throw)
          (fun b => if 2 * b.length + 2 > room then .failed .throw else .signature b), ⟨false, none, none⟩)
      else (.failed .throw, { s with p7 := some d }) := by
  rw [signWithKey]
  cases hk : l.known d with
  | false => simp [pkcs12Signing, hk]
  | true =>
    cases ha : l.accepts d with
    | false => simp [pkcs12Signing, hk, ha, hs]
    | true =>
      have hi : (pkcs12Signing l).init d s = (.ok (), { s with p7 := some d, bio := some [] }) := by
        simp [pkcs12Signing, hk, ha, hs]
      rw [hi]
      simp only
      rw [signBody, pkcs12_updates l ranges _ [] rfl]
      simp only [pkcs12Signing, signGuard, List.nil_append, and_self, if_true]
      cases l.sign d ranges.flatten with
      | none => simp
      | some b =>
        simp only [Option.elim]
        by_cases hr : 2 * b.length + 2 > room
        · simp [hr]
        · simp [hr]

theorem loaded_after (l : Pkcs12Lib) : ∀ (us : List KeyUse) (s : Pkcs12State), s.loaded = true → NeverSigned l us →
    (useKeys l s us).loaded = true
  | [], _, h, _ => h
  | u :: us, s, h, hn => by
    rw [useKeys]
    refine loaded_after l us _ ?_ (fun d r m hm => hn d r m (List.mem_cons_of_mem _ hm))
    cases u with
    | unlock => exact h
    | sign d ranges room =>
      simp only [useKey]
      rw [pkcs12_sign l d ranges room s h, if_neg (hn d ranges room List.mem_cons_self)]
      exact h

/-- **C110.** A key from PKCS#12 that has not signed yet, whatever else a program has tried with it, signs all ranges
of the file, one after the other, and unlocks the files that are for its certificate. -/
theorem C110_history_partial (l : Pkcs12Lib) (us : List KeyUse) (hn : NeverSigned l us) :
    (∀ d ranges room b, signatureOf l d ranges = some b → SignatureFits room b →
      (useKey l (useKeys l .fresh us) (.sign d ranges room)).1 = .signed (.signature b)) ∧
    (∀ d ranges room, (signatureOf l d ranges = none ∨ ∃ b, signatureOf l d ranges = some b ∧ ¬ SignatureFits room b) →
      (useKey l (useKeys l .fresh us) (.sign d ranges room)).1 = .signed (.failed .throw)) ∧
    ∀ p st d old, (useKey l (useKeys l .fresh us) (.unlock p st d old)).1 =
      .unlocked (setKey p (pkcs12 l.issuer l.serial l.size l.rsa) st d old) := by
  have hl := loaded_after l us .fresh rfl hn
  refine ⟨?_, ?_, ?_⟩
  · intro d ranges room b hs hf
    unfold signatureOf at hs
    unfold SignatureFits at hf
    split at hs
    · rename_i hk
      simp only [useKey]
      rw [pkcs12_sign l d ranges room _ hl, if_pos hk, hs]
      simp [show ¬ 2 * b.length + 2 > room by omega]
    · cases hs
  · intro d ranges room hs
    simp only [useKey]
    rw [pkcs12_sign l d ranges room _ hl]
    unfold signatureOf at hs
    split
    · rename_i hk
      rw [if_pos hk] at hs
      rcases hs with hs | ⟨b, hs, hf⟩
      · simp [hs]
      · unfold SignatureFits at hf
        simp [hs, show 2 * b.length + 2 > room by omega]
    · rfl
  · intro p st d old
    simp only [useKey, pkcs12At, hl, if_true]

/-- **C110 fails for the second signature.** Once a key from PKCS#12 has been used for a signature, successful or not,
every further signature with it reads a null pointer. -/
theorem C110_again_counterexample (l : Pkcs12Lib) (us : List KeyUse) (hn : NeverSigned l us) (d : Nat)
    (ranges : List Bytes) (room : Nat) (hk : l.known d = true) (ha : l.accepts d = true) (d' : Nat) (ranges' : List Bytes)
    (room' : Nat) (hk' : l.known d' = true) :
    (useKey l (useKeys l .fresh (us ++ [.sign d ranges room])) (.sign d' ranges' room')).1 = .signed (.failed .ub) := by
  have hrun : ∀ (a b : List KeyUse) (s : Pkcs12State), useKeys l s (a ++ b) = useKeys l (useKeys l s a) b := by
    intro a
    induction a with
    | nil => intro b s; rfl
    | cons u us ih => intro b s; rw [List.cons_append, useKeys, useKeys, ih]
  have hl := loaded_after l us .fresh rfl hn
  rw [hrun]
  simp only [useKeys, useKey]
  rw [pkcs12_sign l d ranges room _ hl, if_pos ⟨hk, ha⟩]
  simp [signWithKey, pkcs12Signing, hk']

/-- **C110 fails for unlocking after a signature.** A key that has signed reads a null pointer for the first envelope
with a recipient. -/
theorem C110_unlock_counterexample (l : Pkcs12Lib) (us : List KeyUse) (hn : NeverSigned l us) (d : Nat)
    (ranges : List Bytes) (room : Nat) (hk : l.known d = true) (ha : l.accepts d = true) (p : Pkcs7) (st : PStore)
    (dict : Dict) (old : Option Bytes) (o : Obj) (os : List Obj) (b : Bytes) (bits : Int) (aes : Bool) (e : Envelope)
    (r : Recipient) (rs : List Recipient) (hd : ForRecipients st dict (o :: os) bits aes) (hs : IsString st o b)
    (hp : p.parse b = some e) (hr : e.recipients = r :: rs) :
    (useKey l (useKeys l .fresh (us ++ [.sign d ranges room])) (.unlock p st (some dict) old)).1 =
      .unlocked (.error .ub) := by
  have hrun : ∀ (a b : List KeyUse) (s : Pkcs12State), useKeys l s (a ++ b) = useKeys l (useKeys l s a) b := by
    intro a
    induction a with
    | nil => intro b s; rfl
    | cons u us ih => intro b s; rw [List.cons_append, useKeys, useKeys, ih]
  have hl := loaded_after l us .fresh rfl hn
  rw [hrun]
  simp only [useKeys, useKey]
  rw [pkcs12_sign l d ranges room _ hl, if_pos ⟨hk, ha⟩]
  rw [setKey, settings_of hd, ok_bind]
  simp only
  rw [recipientKey, openEnvelopes, recipientString_of hs, ok_bind, hp]
  simp only
  rw [hr, tryRecipients]
  rfl

/-! ### Passwords -/

theorem zeroTerminated_ub : ∀ (b : Bytes), (0 : Byte) ∉ b → zeroTerminated b = .error .ub
  | [], _ => rfl
  | x :: xs, h => by
    have hx : ¬ x = 0 := fun e => h (e ▸ List.mem_cons_self)
    rw [zeroTerminated, if_neg hx, zeroTerminated_ub xs (fun m => h (List.mem_cons_of_mem _ m))]
    rfl

/-- **C110.** Without a password, or with an empty one, the key is loaded exactly if the file opens without. -/
theorem C110_load_partial (parse : Option Bytes → Bool) (password : Option Bytes) (h : password = none ∨ password = some []) :
    loadKey parse password = if parse none then .ok .fresh else .error .throw := by
  rcases h with rfl | rfl <;> rfl

/-- **C110 fails for passwords.** Every other password is read beyond its end. -/
theorem C110_password_counterexample (parse : Option Bytes → Bool) (password : Bytes) (h : password ≠ [])
    (hz : (0 : Byte) ∉ password) : loadKey parse (some password) = .error .ub := by
  rw [loadKey]
  simp only [Option.getD_some]
  rw [if_neg h, zeroTerminated_ub password hz]
  rfl

/-! ### Example -/

/-- A key whose signature is the data backwards; only digest 7 (SHA256) works. -/
def sampleSigner : Pkcs12Lib where
  issuer := b! "CA"
  serial := [2]
  size := 4
  rsa c := some c
  known d := decide (0 < d ∧ d ≤ 12)
  accepts d := decide (d = 7)
  sign _ b := some b.reverse

example : signatureOf sampleSigner 7 [[1, 2], [3]] = some [3, 2, 1] ∧ SignatureFits 10 [3, 2, 1] := ⟨by decide +kernel, by simp [SignatureFits]⟩

example : NeverSigned sampleSigner [.sign 3 [[1]] 10, .unlock ⟨fun _ => none, fun _ _ => [], id, id⟩ (fun _ => .null) none none] := by
  intro d ranges room h
  simp only [List.mem_cons, KeyUse.sign.injEq, reduceCtorEq, List.not_mem_nil, or_false] at h
  obtain ⟨rfl, -, -⟩ := h
  decide

example : signWithKey (pkcs12Signing sampleSigner) 7 [[1, 2], [3]] 10 .fresh = (.signature [3, 2, 1], ⟨false, none, none⟩) := by
  decide +kernel

/-- Callbacks of which the second update fails. -/
def sampleCallbacks : SignCallbacks where
  init _ _ := true
  update h _ := decide (h.length < 2)
  final _ := (true, some [9])
  cleanup _ := true

example : signWithKey (customKey sampleCallbacks) 7 [[1], [2], [3]] 10 [] =
    (.failed .throw, [.init 7, .update [1], .update [2], .cleanup]) := by decide +kernel

end VPdf
