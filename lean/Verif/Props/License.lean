import Verif.Spec.License
import Verif.Props.DocumentInfo
import Verif.Lemmas.ParseTerm
import Mathlib.Tactic.ByContra
/-
  C106: licences.
-/
namespace VPdf
open Spec

theorem dateDigit_spec (c : Byte) (n : Nat) : dateDigit c = some n ↔ n < 10 ∧ c = dayDigit n := by
  unfold dateDigit dayDigit
  constructor
  · intro h
    split at h
    · rename_i hc
      cases h
      have h1 : 48 ≤ c.toNat := UInt8.le_iff_toNat_le.mp hc.1
      have h2 : c.toNat ≤ 57 := UInt8.le_iff_toNat_le.mp hc.2
      refine ⟨by omega, ?_⟩
      apply UInt8.toNat_inj.mp
      rw [UInt8.toNat_ofNat']
      omega
    · cases h
  · rintro ⟨h1, rfl⟩
    have key : ∀ k : Fin 10, (if 0x30 ≤ UInt8.ofNat (48 + k.1 % 10) ∧ UInt8.ofNat (48 + k.1 % 10) ≤ 0x39
        then some ((UInt8.ofNat (48 + k.1 % 10)).toNat - 0x30) else none) = some k.1 := by decide +kernel
    exact key ⟨n, h1⟩

theorem dayDigit_mod (n : Nat) : dayDigit (n % 10) = dayDigit n := by unfold dayDigit; rw [Nat.mod_mod]

theorem dateDigit_day (n : Nat) : dateDigit (dayDigit n) = some (n % 10) :=
  (dateDigit_spec _ _).mpr ⟨Nat.mod_lt _ (by decide), (dayDigit_mod n).symm⟩

theorem readDay_spec (text : Bytes) (y m d : Nat) : readDay text = some (y, m, d) ↔ BeginsWithDay text y m d := by
  constructor
  · intro h
    unfold readDay at h
    split at h
    · rename_i y1 y2 y3 y4 h1 m1 m2 h2 d1 d2 rest
      simp only [Option.bind_eq_bind, Option.bind_eq_some_iff] at h
      obtain ⟨a, ha, b, hb, c, hc, d', hd, e, he, f, hf, g, hg, k, hk, h⟩ := h
      rw [dateDigit_spec] at ha hb hc hd he hf hg hk
      split at h
      · rename_i hh
        simp only [Option.some.injEq, Prod.mk.injEq] at h
        obtain ⟨h3, h4, h5⟩ := h
        refine ⟨by omega, by omega, by omega, rest, ?_⟩
        have e1 : ∀ p q : Nat, q % 10 = p % 10 → dayDigit q = dayDigit p := by
          intro p q hpq; unfold dayDigit; rw [hpq]
        unfold dayText
        rw [e1 a (y / 1000) (by omega), e1 b (y / 100) (by omega), e1 c (y / 10) (by omega), e1 d' y (by omega),
          e1 e (m / 10) (by omega), e1 f m (by omega), e1 g (d / 10) (by omega), e1 k d (by omega),
          ha.2, hb.2, hc.2, hd.2, he.2, hf.2, hg.2, hk.2, hh.1, hh.2]
        rfl
      · cases h
    · cases h
  · rintro ⟨hy, hm, hd, rest, rfl⟩
    unfold dayText
    simp only [List.cons_append, List.nil_append]
    unfold readDay
    simp only [dateDigit_day, Option.bind_eq_bind, Option.bind_some]
    simp only [and_self, if_true, Option.some.injEq, Prod.mk.injEq]
    omega

theorem licenseTime_spec (e : LicenseChecks) (text : Bytes) (t : Int) : licenseTime e text = .ok t ↔ TimeOf e text t ∧ t ≠ -1 := by
  unfold licenseTime TimeOf
  cases hr : readDay text with
  | none =>
    have hn : ∀ y m d, ¬ BeginsWithDay text y m d := fun y m d hb => by
      rw [(readDay_spec text y m d).mpr hb] at hr; cases hr
    dsimp only
    constructor
    · intro h
      split at h
      · cases h
      · rename_i h1; cases h; exact ⟨.inr ⟨hn, rfl⟩, h1⟩
    · rintro ⟨(⟨y, m, d, hb, _⟩ | ⟨_, rfl⟩), h2⟩
      · exact absurd hb (hn y m d)
      · rw [if_neg h2]
  | some x =>
    obtain ⟨y, m, d⟩ := x
    have hb := (readDay_spec text y m d).mp hr
    dsimp only
    constructor
    · intro h
      split at h
      · cases h
      · rename_i h1; cases h; exact ⟨.inl ⟨y, m, d, hb, rfl⟩, h1⟩
    · rintro ⟨(⟨y', m', d', hb', rfl⟩ | ⟨hn, _⟩), h2⟩
      · rw [(readDay_spec text y' m' d').mpr hb'] at hr
        simp only [Option.some.injEq, Prod.mk.injEq] at hr
        obtain ⟨rfl, rfl, rfl⟩ := hr
        rw [if_neg h2]
      · exact absurd hb (hn y m d)

theorem updatesExpired_spec (e : LicenseChecks) (text : Bytes) :
    updatesExpired e text = .ok false ↔ ∃ t, TimeOf e text t ∧ t ≠ -1 ∧ e.built ≠ -1 ∧ e.built ≤ t := by
  unfold updatesExpired
  constructor
  · intro h
    obtain ⟨t, ht, h⟩ := bind_ok h
    obtain ⟨h1, h2⟩ := (licenseTime_spec e text t).mp ht
    by_cases hb : e.built = -1
    · rw [if_pos hb] at h; cases h
    · rw [if_neg hb] at h
      simp only [pure, Except.pure, Except.ok.injEq, decide_eq_false_iff_not] at h
      exact ⟨t, h1, h2, hb, by omega⟩
  · rintro ⟨t, h1, h2, h3, h4⟩
    rw [(licenseTime_spec e text t).mpr ⟨h1, h2⟩, ok_bind, if_neg h3]
    simp only [pure, Except.pure, Except.ok.injEq, decide_eq_false_iff_not]
    omega

theorem takeDrop_dot (major minor : Bytes) (h : 46 ∉ major) :
    (major ++ 46 :: minor).takeWhile (· != 0x2E) = major ∧ ((major ++ 46 :: minor).dropWhile (· != 0x2E)).drop 1 = minor := by
  induction major with
  | nil => exact ⟨rfl, rfl⟩
  | cons c r ih =>
    simp only [List.mem_cons, not_or] at h
    have hc : (c != (0x2E : Byte)) = true := by
      rw [bne_iff_ne]; intro e; exact h.1 e.symm
    have := ih h.2
    constructor
    · rw [List.cons_append, List.takeWhile_cons, if_pos hc, this.1]
    · rw [List.cons_append, List.dropWhile_cons, if_pos hc, this.2]

theorem split_dot (v : Bytes) (h : 46 ∈ v) : ∃ major minor, v = major ++ 46 :: minor ∧ 46 ∉ major := by
  induction v with
  | nil => cases h
  | cons c r ih =>
    by_cases hc : c = 46
    · subst hc; exact ⟨[], r, rfl, by simp⟩
    · have hr : 46 ∈ r := by
        rcases List.mem_cons.mp h with h | h
        · exact absurd h.symm hc
        · exact h
      obtain ⟨a, b, h1, h2⟩ := ih hr
      refine ⟨c :: a, b, by rw [h1]; rfl, ?_⟩
      simp only [List.mem_cons, not_or]
      exact ⟨fun e => hc e.symm, h2⟩

theorem licenseMajor_spec (v : Bytes) : licenseMajor v = .ok 1 ↔ FirstFormat v := by
  unfold licenseMajor FirstFormat
  by_cases hv : 46 ∈ v
  · obtain ⟨major, minor, rfl, hn⟩ := split_dot v hv
    obtain ⟨h1, h2⟩ := takeDrop_dot major minor hn
    have hc : (!(major ++ 46 :: minor).contains (0x2E : Byte)) = false := by
      simp
    rw [hc, h1, h2]
    simp only [Bool.false_eq_true, if_false]
    constructor
    · intro h
      obtain ⟨a, ha, h⟩ := bind_ok h
      obtain ⟨b, hb, h⟩ := bind_ok h
      cases h
      exact ⟨major, minor, b, rfl, hn, ha, hb⟩
    · rintro ⟨ma, mi, n, he, hn', ha, hb⟩
      obtain ⟨e1, e2⟩ := takeDrop_dot ma mi hn'
      rw [← he, h1] at e1
      rw [← he, h2] at e2
      subst e1; subst e2
      show (do let m ← stoi 10 major; let _ ← stoi 10 minor; pure m : Res Int) = _
      rw [ha, ok_bind, hb]; rfl
  · have hc : (!v.contains (0x2E : Byte)) = true := by simpa using hv
    rw [hc]
    constructor
    · intro h; cases h
    · rintro ⟨ma, mi, n, rfl, _⟩
      exact absurd (List.mem_append_right ma (List.mem_cons_self)) hv

theorem allTexts_spec (l : List (Option Bytes)) (c : List Bytes) : allTexts l = .ok c ↔ l = c.map some := by
  induction l generalizing c with
  | nil => cases c <;> simp [allTexts]
  | cons a r ih =>
    cases a with
    | none => cases c <;> simp [allTexts]
    | some x =>
      rw [allTexts]
      constructor
      · intro h
        cases hr : allTexts r with
        | error f => rw [hr] at h; cases h
        | ok c' =>
          rw [hr] at h
          cases h
          rw [(ih c').mp hr, List.map_cons]
      · intro h
        cases c with
        | nil => cases h
        | cons y c' =>
          simp only [List.map_cons, List.cons.injEq, Option.some.injEq] at h
          rw [(ih c').mpr h.2, h.1]; rfl

theorem checkSigned_spec (e : LicenseChecks) (content : Bytes) (s : Option Bytes) (cs : Option (List (Option Bytes))) :
    checkSigned e content s cs = .ok () ↔ ∃ sig certs, s = some sig ∧ cs = some (certs.map some) ∧
      (∃ first, certs.head? = some first ∧ e.signed content sig first = .ok true) ∧ e.chain certs = .ok true := by
  constructor
  · intro h
    unfold checkSigned at h
    split at h
    · rename_i sig first rest
      obtain ⟨b, hb, h⟩ := bind_ok h
      cases b with
      | false => cases h
      | true =>
        simp only [if_true] at h
        obtain ⟨c, hc, h⟩ := bind_ok h
        obtain ⟨d, hd, h⟩ := bind_ok h
        cases d with
        | false => cases h
        | true =>
          have := (allTexts_spec _ c).mp hc
          refine ⟨sig, c, rfl, by rw [this], ⟨first, ?_, hb⟩, hd⟩
          cases c with
          | nil => cases this
          | cons x c => simp only [List.map_cons, List.cons.injEq, Option.some.injEq] at this; rw [this.1]; rfl
    · cases h
  · rintro ⟨sig, certs, rfl, rfl, ⟨first, hf, hs⟩, hc⟩
    obtain ⟨r, rfl⟩ : ∃ r, certs = first :: r := by
      cases certs with
      | nil => cases hf
      | cons x r => cases hf; exact ⟨r, rfl⟩
    have ht : allTexts (some first :: r.map some) = .ok (first :: r) := (allTexts_spec _ (first :: r)).mpr rfl
    show (do
      let ok ← e.signed content sig first
      if ok then do
        let certs ← allTexts (some first :: r.map some)
        let chain ← e.chain certs
        if chain then .ok () else .error .throw
      else .error .throw : Res Unit) = .ok ()
    rw [hs, ok_bind, if_pos rfl, ht, ok_bind, hc, ok_bind, if_pos rfl]

theorem serialRefused_spec (e : LicenseChecks) (serial : Bytes) : serialRefused e serial = false ↔ ∀ r ∈ e.refused, ¬ SameText serial r := by
  unfold serialRefused
  rw [List.any_eq_false]
  constructor
  · intro h r hr hs; exact h r hr ((sameText_letters _ _).mp hs)
  · intro h r hr hs; exact h r hr ((sameText_letters _ _).mpr hs)

theorem setLicense_spec (e : LicenseChecks) (l : LicenseText) (st st' : LicenseState) :
    setLicense e l st = .ok st' ↔ Acceptable e l ∧ st' = ⟨true, l.temporary.getD []⟩ := by
  constructor
  · intro h
    unfold setLicense at h
    split at h
    · cases h
    · rename_i v hv
      obtain ⟨major, hm, h⟩ := bind_ok h
      by_cases h1 : major = 1
      · rw [if_pos h1] at h
        subst h1
        split at h
        · rename_i owner note serial updates ho hn hs hu
          cases hr : serialRefused e serial with
          | true => rw [hr] at h; cases h
          | false =>
            rw [hr] at h
            simp only [Bool.false_eq_true, if_false] at h
            obtain ⟨x, hx, h⟩ := bind_ok h
            cases x with
            | true => cases h
            | false =>
              simp only [Bool.false_eq_true, if_false] at h
              obtain ⟨_, hc, h⟩ := bind_ok h
              cases h
              obtain ⟨t, t1, t2, t3, t4⟩ := (updatesExpired_spec e updates).mp hx
              obtain ⟨sig, certs, c1, c2, c3, c4⟩ := (checkSigned_spec e _ _ _).mp hc
              exact ⟨⟨v, owner, note, serial, updates, sig, certs, t, hv, (licenseMajor_spec v).mp hm, ho, hn, hs, hu,
                (serialRefused_spec e serial).mp hr, t1, t2, t3, t4, c1, c2, c3, c4⟩, rfl⟩
        · cases h
      · rw [if_neg h1] at h; cases h
  · rintro ⟨⟨v, owner, note, serial, updates, sig, certs, t, hv, hf, ho, hn, hs, hu, hr, t1, t2, t3, t4, c1, c2, c3, c4⟩, rfl⟩
    unfold setLicense
    rw [hv]
    dsimp only
    rw [(licenseMajor_spec v).mpr hf, ok_bind, if_pos rfl, ho, hn, hs, hu]
    dsimp only
    rw [(serialRefused_spec e serial).mpr hr]
    simp only [Bool.false_eq_true, if_false]
    rw [(updatesExpired_spec e updates).mpr ⟨t, t1, t2, t3, t4⟩, ok_bind]
    simp only [Bool.false_eq_true, if_false]
    rw [(checkSigned_spec e (signedContent owner note serial updates l.temporary) l.signature l.certificates).mpr ⟨sig, certs, c1, c2, c3, c4⟩]
    rfl

/-- **C106: a licence is accepted exactly if it is in order**, and then it counts; one that is refused changes nothing. -/
theorem C106_accept (e : LicenseChecks) (l : LicenseText) (st : LicenseState) :
    ((∃ st', setLicense e l st = .ok st') ↔ Acceptable e l) ∧
    (Acceptable e l → callSetLicense e st l = ⟨true, l.temporary.getD []⟩) ∧
    (¬ Acceptable e l → callSetLicense e st l = st) := by
  refine ⟨⟨fun ⟨st', h⟩ => ((setLicense_spec e l st st').mp h).1, fun h => ⟨_, (setLicense_spec e l st _).mpr ⟨h, rfl⟩⟩⟩, fun h => ?_, fun h => ?_⟩
  · unfold callSetLicense
    rw [(setLicense_spec e l st _).mpr ⟨h, rfl⟩]
  · unfold callSetLicense
    split
    · rename_i st' hs; exact absurd ((setLicense_spec e l st st').mp hs).1 h
    · rfl

/-- **C106: after any history of attempts** the licence that counts is the last one that was accepted: whether there is a time limit and,
in builds that enforce licences, whether the licence is valid, depend on it only.  Other builds say that there is a valid licence always. -/
theorem C106_history (e : LicenseChecks) (h : List LicenseText) (x : Option LicenseText) (hx : LastAccepted e h x) (now : Int) :
    let st := h.foldl (callSetLicense e) noLicense
    (isTemporary st = true ↔ ∃ l t, x = some l ∧ l.temporary = some t ∧ t ≠ []) ∧
    (licenseValid true e now st = .ok true ↔ ∃ l, x = some l ∧ ∀ t, l.temporary = some t → t ≠ [] → ∃ u, TimeOf e t u ∧ u ≠ -1 ∧ now ≤ u) ∧
    licenseValid false e now st = .ok true := by
  have key : h.foldl (callSetLicense e) noLicense = x.elim noLicense fun l => ⟨true, l.temporary.getD []⟩ := by
    induction hx with
    | start => rfl
    | accepted h l ha => rw [List.foldl_append]; exact ((C106_accept e l _).2.1 ha)
    | refused h l x ha _ ih => rw [List.foldl_append]; exact ((C106_accept e l _).2.2 ha).trans ih
  intro st
  have hst : st = x.elim noLicense fun l => ⟨true, l.temporary.getD []⟩ := key
  clear_value st
  subst hst
  refine ⟨?_, ?_, rfl⟩
  · cases x with
    | none => simp [isTemporary, noLicense]
    | some l =>
      cases ht : l.temporary with
      | none => simp [isTemporary, ht]
      | some t => cases t <;> simp [isTemporary, ht]
  · cases x with
    | none => simp [licenseValid, noLicense]
    | some l =>
      cases ht : l.temporary with
      | none => simp [licenseValid, ht]
      | some t =>
        cases t with
        | nil => simp [licenseValid, ht]
        | cons c r =>
          constructor
          · intro h
            refine ⟨l, rfl, fun t et _ => ?_⟩
            rw [ht] at et
            cases et
            rw [Option.elim, ht] at h
            have h' : (do let u ← licenseTime e (c :: r); pure (!decide (u < now)) : Res Bool) = .ok true := h
            obtain ⟨u, hu, h'⟩ := bind_ok h'
            obtain ⟨h1, h2⟩ := (licenseTime_spec e _ u).mp hu
            simp only [pure, Except.pure, Except.ok.injEq, Bool.not_eq_true', decide_eq_false_iff_not] at h'
            exact ⟨u, h1, h2, by omega⟩
          · rintro ⟨l', e1, h⟩
            cases e1
            obtain ⟨u, h1, h2, h3⟩ := h (c :: r) ht (by simp)
            rw [Option.elim, ht]
            show (do let u ← licenseTime e (c :: r); pure (!decide (u < now)) : Res Bool) = .ok true
            rw [(licenseTime_spec e _ u).mpr ⟨h1, h2⟩, ok_bind]
            simp only [pure, Except.pure, Except.ok.injEq, Bool.not_eq_true', decide_eq_false_iff_not]
            omega

theorem sameData_of_content (a b : LicenseText) (c : Bytes) (ha : HasContent a c) (hb : HasContent b c) (hl : SameLengths a b) : SameData a b := by
  obtain ⟨ho, hn, hs, hu, ht⟩ := hl
  obtain ⟨o1, n1, s1, u1, a1, a2, a3, a4, rfl⟩ := ha
  obtain ⟨o2, n2, s2, u2, b1, b2, b3, b4, hc⟩ := hb
  rw [a1, b1] at ho
  rw [a2, b2] at hn
  rw [a3, b3] at hs
  rw [a4, b4] at hu
  simp only [Option.map_some, Option.some.injEq] at ho hn hs hu
  simp only [List.append_assoc] at hc
  obtain ⟨e1, hc⟩ := List.append_inj hc ho
  obtain ⟨e2, hc⟩ := List.append_inj hc hn
  obtain ⟨e3, hc⟩ := List.append_inj hc hs
  obtain ⟨e4, hc⟩ := List.append_inj hc hu
  refine ⟨by rw [a1, b1, e1], by rw [a2, b2, e2], by rw [a3, b3, e3], by rw [a4, b4, e4], ?_⟩
  cases h1 : a.temporary with
  | none =>
    cases h2 : b.temporary with
    | none => rfl
    | some t => rw [h1, h2] at ht; cases ht
  | some t =>
    cases h2 : b.temporary with
    | none => rw [h1, h2] at ht; cases ht
    | some t' => rw [h1, h2] at hc; exact congrArg some hc

/-- **C106 (partial): only what was signed is accepted**, as long as the parts have the lengths they had: if nothing but the content of one
licence has been signed, every licence that is accepted has its data.  Missing: other lengths (below). -/
theorem C106_data_partial (e : LicenseChecks) (issued l : LicenseText) (c : Bytes) (st st' : LicenseState) (hc : HasContent issued c)
    (hs : ∀ content sig cert, e.signed content sig cert = .ok true → content = c) (hl : SameLengths l issued)
    (h : setLicense e l st = .ok st') : SameData l issued := by
  obtain ⟨_, owner, note, serial, updates, _, _, _, _, _, h1, h2, h3, h4, _, _, _, _, _, _, _, ⟨_, _, h5⟩, _⟩ := ((setLicense_spec e l st st').mp h).1
  exact sameData_of_content l issued c ⟨owner, note, serial, updates, h1, h2, h3, h4, (hs _ _ _ h5).symm⟩ hc hl

/-- **C106 is false of licences with a time limit.**  From every accepted licence with a time limit everyone can make one without: the
limit is appended to the date before it, where it is not read.  The signature stays valid. -/
theorem C106_limit_counterexample (e : LicenseChecks) (l : LicenseText) (u t : Bytes) (y m d : Nat) (st : LicenseState)
    (h : Acceptable e l) (hu : l.updates = some u) (hd : BeginsWithDay u y m d) (ht : l.temporary = some t) (hn : t ≠ []) :
    let l' := { l with updates := some (u ++ t), temporary := none }
    ¬ SameData l l' ∧ (∃ st', setLicense e l' st = .ok st') ∧
    isTemporary (callSetLicense e st l) = true ∧ isTemporary (callSetLicense e st l') = false := by
  intro l'
  have ha : Acceptable e l' := by
    obtain ⟨v, owner, note, serial, updates, sig, certs, tm, hv, hf, ho, hno, hs, hu', hr, t1, t2, t3, t4, c1, c2, ⟨first, c3, c5⟩, c4⟩ := h
    rw [hu] at hu'
    cases hu'
    refine ⟨v, owner, note, serial, u ++ t, sig, certs, tm, hv, hf, ho, hno, hs, rfl, hr, ?_, t2, t3, t4, c1, c2, ⟨first, c3, ?_⟩, c4⟩
    · have hb : BeginsWithDay (u ++ t) y m d := by
        obtain ⟨a1, a2, a3, rest, rfl⟩ := hd
        exact ⟨a1, a2, a3, rest ++ t, by rw [List.append_assoc]⟩
      rcases t1 with ⟨y', m', d', hb', rfl⟩ | ⟨hn', _⟩
      · have : (y, m, d) = (y', m', d') := Option.some.inj
          (((readDay_spec u y m d).mpr hd).symm.trans ((readDay_spec u y' m' d').mpr hb'))
        cases this
        exact .inl ⟨y, m, d, hb, rfl⟩
      · exact absurd hd (hn' y m d)
    · rw [ht] at c5
      simpa [l'] using c5
  refine ⟨fun hs => ?_, (C106_accept e l' st).1.mpr ha, ?_, ?_⟩
  · have := hs.2.2.2.2
    rw [ht] at this
    cases this
  · rw [(C106_accept e l st).2.1 h, ht]
    cases t with
    | nil => exact absurd rfl hn
    | cons c r => rfl
  · rw [(C106_accept e l' st).2.1 ha]; rfl

/-- **C106 is false of refused serial numbers.**  From every licence that is not accepted only because its serial number is refused
everyone can make one that is accepted: the number is appended to the note before it. -/
theorem C106_serial_counterexample (e : LicenseChecks) (st : LicenseState) (l : LicenseText) (note serial : Bytes) (hn : l.note = some note)
    (hs : l.serial = some serial) (h : Acceptable { e with refused := [] } l) (hr : ∃ r ∈ e.refused, SameText serial r)
    (he : ∀ r ∈ e.refused, r ≠ []) :
    (¬ ∃ st', setLicense e l st = .ok st') ∧ ∃ st', setLicense e { l with note := some (note ++ serial), serial := some [] } st = .ok st' := by
  rw [(C106_accept e l st).1, (C106_accept e _ st).1]
  constructor
  · rintro ⟨_, _, _, s', _, _, _, _, _, _, _, _, hs', _, hr', _⟩
    rw [hs] at hs'
    cases hs'
    obtain ⟨r, h1, h2⟩ := hr
    exact hr' r h1 h2
  · obtain ⟨v, owner, note', serial', updates, sig, certs, tm, hv, hf, ho, hno, hs', hu', _, t1, t2, t3, t4, c1, c2, ⟨first, c3, c5⟩, c4⟩ := h
    rw [hn] at hno
    cases hno
    rw [hs] at hs'
    cases hs'
    refine ⟨v, owner, note ++ serial, [], updates, sig, certs, tm, hv, hf, ho, rfl, rfl, hu', ?_, t1, t2, t3, t4, c1, c2, ⟨first, c3, ?_⟩, c4⟩
    · intro r hr hx
      have := hx.1
      cases r with
      | nil => exact he _ hr rfl
      | cons a b => cases this
    · simpa [List.append_assoc] using c5

/-- **C106 is false of licences whose updates have ended.**  If such a licence has a time limit after the library was built, everyone can
make one of it that is accepted: the limit takes the place of the date of the updates. -/
theorem C106_updates_counterexample (e : LicenseChecks) (st : LicenseState) (l : LicenseText) (serial u t : Bytes) (x tu : Int)
    (hs : l.serial = some serial) (hu : l.updates = some u) (ht : l.temporary = some t)
    (hx : TimeOf e t x) (h1 : x ≠ -1) (h2 : e.built ≤ x) (hb : e.built ≠ -1)
    (h : ∃ b, Acceptable { e with built := b } l) (htu : TimeOf e u tu) (hexp : tu < e.built)
    (hr : ∀ r ∈ e.refused, ¬ SameText (serial ++ u) r) :
    (¬ ∃ st', setLicense e l st = .ok st') ∧
      ∃ st', setLicense e { l with serial := some (serial ++ u), updates := some t, temporary := none } st = .ok st' := by
  rw [(C106_accept e l st).1, (C106_accept e _ st).1]
  constructor
  · rintro ⟨_, _, _, _, u', _, _, tm, _, _, _, _, _, hu', _, t1, t2, _, t4, _⟩
    rw [hu] at hu'
    cases hu'
    have a := (licenseTime_spec e u tm).mpr ⟨t1, t2⟩
    by_cases htm : tu = -1
    · subst htm
      rcases t1 with ⟨y, m, d, b1, rfl⟩ | ⟨b1, rfl⟩ <;> rcases htu with ⟨y', m', d', b2, b3⟩ | ⟨b2, b3⟩
      · have : (y, m, d) = (y', m', d') := Option.some.inj
          (((readDay_spec u y m d).mpr b1).symm.trans ((readDay_spec u y' m' d').mpr b2))
        cases this
        exact t2 b3.symm
      · exact b2 y m d b1
      · exact b1 y' m' d' b2
      · exact t2 b3.symm
    · have b := (licenseTime_spec e u tu).mpr ⟨htu, htm⟩
      rw [a] at b
      cases b
      omega
  · obtain ⟨b, v, owner, note, serial', u', sig, certs, tm, hv, hf, ho, hno, hs', hu', _, _, _, _, _, c1, c2, ⟨first, c3, c5⟩, c4⟩ := h
    rw [hs] at hs'
    cases hs'
    rw [hu] at hu'
    cases hu'
    refine ⟨v, owner, note, serial ++ u, t, sig, certs, x, hv, hf, ho, hno, rfl, rfl, hr, hx, h1, hb, h2, c1, c2, ⟨first, c3, ?_⟩, c4⟩
    rw [ht] at c5
    simpa [List.append_assoc] using c5

/-! ### Cases -/

/-- Checks that accept one signature of one content, by one certificate. -/
def sampleChecks : LicenseChecks where
  signed := fun content sig cert => .ok (decide (content = b! "Me2 users12AB2030-01-012026-12-31" ∧ sig = b! "U0lH" ∧ cert = b! "PEM"))
  chain := fun certs => .ok (decide (certs = [b! "PEM"]))
  refused := [b! "66FF"]
  time := fun y m d => 366 * y + 31 * m + d
  unread := fun _ => 0
  built := 366 * 2025

/-- A licence with a time limit. -/
def sampleLicense : LicenseText where
  version := some (b! "1.0")
  owner := some (b! "Me")
  note := some (b! "2 users")
  serial := some (b! "12AB")
  updates := some (b! "2030-01-01")
  temporary := some (b! "2026-12-31")
  signature := some (b! "U0lH")
  certificates := some [some (b! "PEM")]

theorem sampleLicense_ok : Acceptable sampleChecks sampleLicense :=
  (C106_accept sampleChecks sampleLicense noLicense).1.mp ⟨⟨true, b! "2026-12-31"⟩, by decide +kernel⟩

example : LastAccepted sampleChecks [sampleLicense, { sampleLicense with note := some [] }] (some sampleLicense) :=
  .refused [sampleLicense] _ _ (fun h => by
    obtain ⟨st, h⟩ := (C106_accept sampleChecks _ noLicense).1.mpr h
    revert h
    have : setLicense sampleChecks { sampleLicense with note := some [] } noLicense = .error .throw := by decide +kernel
    rw [this]; intro h; cases h) (.accepted [] _ sampleLicense_ok)

example : ∃ st', setLicense sampleChecks { sampleLicense with updates := some (b! "2030-01-012026-12-31"), temporary := none } noLicense = .ok st' :=
  (C106_limit_counterexample sampleChecks sampleLicense (b! "2030-01-01") (b! "2026-12-31") 2030 1 1 noLicense sampleLicense_ok rfl
    ⟨by decide, by decide, by decide, [], by decide +kernel⟩ rfl (by decide)).2.1

example : ∃ st', setLicense { sampleChecks with refused := [b! "12ab"] }
    { sampleLicense with note := some (b! "2 users12AB"), serial := some [] } noLicense = .ok st' :=
  (C106_serial_counterexample { sampleChecks with refused := [b! "12ab"] } noLicense sampleLicense (b! "2 users") (b! "12AB") rfl rfl
    ((C106_accept { sampleChecks with refused := [] } sampleLicense noLicense).1.mp ⟨⟨true, b! "2026-12-31"⟩, by decide +kernel⟩)
    ⟨b! "12ab", by simp, (sameText_letters _ _).mpr (by decide +kernel)⟩ (by simp)).2

example : setLicense { sampleChecks with built := 366 * 2026, time := fun y _ _ => 366 * (if y = 2030 then 2000 else 2030) } sampleLicense noLicense = .error .throw ∧
    setLicense { sampleChecks with built := 366 * 2026, time := fun y _ _ => 366 * (if y = 2030 then 2000 else 2030) }
      { sampleLicense with serial := some (b! "12AB2030-01-01"), updates := some (b! "2026-12-31"), temporary := none } noLicense = .ok ⟨true, []⟩ := by
  decide +kernel

example : SameData sampleLicense sampleLicense :=
  C106_data_partial sampleChecks sampleLicense sampleLicense (b! "Me2 users12AB2030-01-012026-12-31") noLicense ⟨true, b! "2026-12-31"⟩
    ⟨_, _, _, _, rfl, rfl, rfl, rfl, rfl⟩ (fun content sig cert h => by
      simp only [sampleChecks, Except.ok.injEq, decide_eq_true_eq] at h; exact h.1) ⟨rfl, rfl, rfl, rfl, rfl⟩ (by decide +kernel)

end VPdf
