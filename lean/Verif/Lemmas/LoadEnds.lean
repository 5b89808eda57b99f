import Verif.Spec.LoadEnds
import Verif.Lemmas.RecoveryTerm
import Verif.Lemmas.Loading
import Verif.Lemmas.PageEdit
import Verif.Lemmas.HeapSteps
/-
  Requests for objects end.
-/
namespace VPdf
open Spec

theorem parse_no_timeout {e : Env} (he : GoodEnv e) {s : Bytes} (hs : s <:+ e.whole) : parse e s ≠ .error .timeout :=
  (terminates he _).d1 s hs (by omega)

theorem parseIndirect_no_timeout {e : Env} (he : GoodEnv e) {s : Bytes} (hs : s <:+ e.whole) : parseIndirect e s ≠ .error .timeout := by
  unfold parseIndirect
  refine bind_no_timeout (expectSkip_no_timeout _ _ _) fun ⟨tn, s1⟩ h1 => ?_
  refine bind_no_timeout (expectSkip_no_timeout _ _ _) fun ⟨tg, s2⟩ h2 => ?_
  refine bind_no_timeout (expectSkip_no_timeout _ _ _) fun ⟨t3, s3⟩ h3 => ?_
  refine bind_no_timeout (parse_no_timeout he ((expectSkip_suffix h3).trans ((expectSkip_suffix h2).trans ((expectSkip_suffix h1).trans hs)))) fun ⟨o, s4⟩ _ => ?_
  refine bind_no_timeout (expectSkip_no_timeout _ _ _) fun ⟨t5, s5⟩ _ => ?_
  refine bind_no_timeout (stoll_no_timeout _) fun n _ => ?_
  refine bind_no_timeout (stoll_no_timeout _) fun g _ => ?_
  split <;> (intro h; cases h)

theorem loadAt_no_timeout {e : Env} (he : GoodEnv e) (n g : Nat) (off : Int) : loadAt e n g off ≠ .error .timeout := by
  unfold loadAt
  refine bind_no_timeout (parseIndirect_no_timeout he (seek_suffix e off)) fun ⟨n', g', o, r⟩ _ => ?_
  dsimp only
  split
  · intro h; cases h
  · cases o with
    | direct o => intro h; cases h
    | stream d off => exact bind_no_timeout (rawBody_no_timeout he _ _) fun _ _ h => by cases h

theorem natEntry_no_timeout {e : Env} {k : Bytes} {d : Dict} (h : ∀ n g, valueAt k d = some (.ref n g) → e.resolveInt n g ≠ .error .timeout) :
    natEntry e k d ≠ .error .timeout := by
  unfold natEntry
  rw [← valueAt_eq]
  cases hv : valueAt k d with
  | none => intro h; cases h
  | some o =>
    refine bind_no_timeout ?_ fun i _ => ?_
    · cases o with
      | ref n g => exact h n g hv
      | _ => intro h; cases h
    · split <;> (intro h; cases h)

theorem readObjStm_no_timeout {e : Env} (he : GoodEnv e) (first size : Nat) : readObjStm e first size ≠ .error .timeout := by
  unfold readObjStm
  refine bind_no_timeout ?_ fun h _ => ?_
  · generalize e.whole = s
    induction size generalizing s with
    | zero => intro h; cases h
    | succ k ih =>
      unfold readObjStmHeaders
      refine bind_no_timeout ?_ fun ⟨x, s⟩ _ => bind_no_timeout (ih s) fun _ _ h => by cases h
      unfold readObjStmHeader
      refine bind_no_timeout (expectSkip_no_timeout _ _ _) fun ⟨a, s1⟩ _ => ?_
      refine bind_no_timeout (expectSkip_no_timeout _ _ _) fun ⟨b, s2⟩ _ => ?_
      refine bind_no_timeout (stoll_no_timeout _) fun _ _ => ?_
      refine bind_no_timeout (stoll_no_timeout _) fun _ _ => ?_
      refine bind_no_timeout (safeConvert_no_timeout _ _ _) fun _ _ => ?_
      exact bind_no_timeout (safeConvert_no_timeout _ _ _) fun _ _ h => by cases h
  · rename_i hh; clear hh
    induction h with
    | nil => intro h; cases h
    | cons x l ih =>
      obtain ⟨n, off⟩ := x
      unfold readObjStmObjects
      refine bind_no_timeout (parse_no_timeout he (seek_suffix _ _)) fun ⟨o, _⟩ _ => ?_
      cases o with
      | stream d off => intro h; cases h
      | direct o => exact bind_no_timeout ih fun _ _ h => by cases h

theorem unpack_no_timeout {c : Codec} (hc : ∀ d s, c.decode d s ≠ .error .timeout) {d : Dict} {raw : Bytes}
    (hb : ∀ body, c.decode d raw = .ok body → NoNegativeLength body) {r : Nat → Nat → Res Int} (h1 : ∀ n g i, r n g = .ok i → 0 ≤ i)
    (h2 : ∀ n g, r n g ≠ .error .timeout) (first size : Nat) : unpack c r d raw first size ≠ .error .timeout := by
  unfold unpack
  refine bind_no_timeout (hc _ _) fun body hbody => ?_
  split
  · intro h; cases h
  · exact readObjStm_no_timeout ⟨hb body hbody, h1, h2⟩ first size

theorem fallback_no_timeout {e : Env} {d : Dict} (hd : ∃ i, mapFind (b! "Length") d = some (.int i)) (off : Nat) (f : Nat) (s : Bytes)
    (hf : s.length < f) : streamFallback e d off f s ≠ .error .timeout := by
  induction f generalizing s with
  | zero => omega
  | succ f ih =>
    rw [streamFallback.eq_def]
    cases s with
    | nil => intro h; cases h
    | cons b s =>
      dsimp only
      split
      · have := (readLine_suffix (b :: s)).2 (by simp)
        exact ih _ (by simp only [List.length_cons] at *; omega)
      · refine bind_no_timeout (readTokenSkip_no_timeout _ _) fun _ _ => ?_
        refine bind_no_timeout ?_ fun ⟨offset, rem⟩ _ => ?_
        · unfold endstreamLine
          dsimp only
          split
          · exact bind_no_timeout (expectSkip_no_timeout _ _ _) fun _ _ h => by cases h
          · intro h; cases h
        · refine bind_no_timeout ?_ fun _ _ h => by cases h
          obtain ⟨i, hi⟩ := hd
          unfold correctLength
          rw [hi]; intro h; cases h

theorem mapFind_dictSet {k : Bytes} {v w : Obj} : ∀ {d : Dict}, mapFind k d = some v → mapFind k (dictSet k w d) = some w := by
  intro d
  rw [← valueAt_eq, ← valueAt_eq]
  unfold dictSet
  induction d with
  | nil => intro h; cases h
  | cons e d ih =>
    intro h
    rw [List.map_cons]
    by_cases he : e.1 = k
    · simp [he, valueAt]
    · obtain ⟨k', v'⟩ := e
      have h' : valueAt k d = some v := by
        unfold valueAt at h; rwa [if_neg (Ne.symm he)] at h
      have hk : (k' == k) = false := by simpa using he
      simp only [hk, Bool.false_eq_true, if_false]
      unfold valueAt; rw [if_neg (Ne.symm he)]
      exact ih h'

theorem fallback_length {e : Env} {d : Dict} (hd : ∃ i, mapFind (b! "Length") d = some (.int i)) (off : Nat) (f : Nat) (s : Bytes)
    {d' : Dict} {rem : Bytes} (h : streamFallback e d off f s = .ok (d', rem)) : ∃ i, mapFind (b! "Length") d' = some (.int i) := by
  induction f generalizing s with
  | zero => cases h
  | succ f ih =>
    rw [streamFallback.eq_def] at h
    cases s with
    | nil => cases h
    | cons b s =>
      dsimp only at h
      split at h
      · exact ih _ h
      · obtain ⟨_, _, h⟩ := except_bind_ok h
        obtain ⟨_, _, h⟩ := except_bind_ok h
        obtain ⟨d2, h2, h⟩ := except_bind_ok h
        injection h with h; injection h with h _; subst h
        obtain ⟨i, hi⟩ := hd
        unfold correctLength at h2
        rw [hi] at h2
        injection h2 with h2; subst h2
        exact ⟨_, mapFind_dictSet hi⟩

theorem streamTail_no_timeout (e : Env) (d : Dict) (data here : Nat) (len : Int) (r : Bytes) :
    streamTail e d data here len r ≠ .error .timeout := by
  unfold streamTail
  refine bind_no_timeout (readTokenSkip_no_timeout _ _) fun ⟨t, r3⟩ _ => ?_
  dsimp only
  have hd : ∃ i, mapFind (b! "Length") (mapInsert (b! "Length") (.int 0) (mapErase (b! "Length") d)) = some (.int i) :=
    ⟨0, mapFind_insert_new (by rw [mapErase_find, if_pos rfl])⟩
  split
  · split
    · intro h; cases h
    · intro h; cases h
  · refine bind_no_timeout (fallback_no_timeout hd _ _ _ (by omega)) fun ⟨d', rem⟩ hf => ?_
    obtain ⟨i, hi⟩ := fallback_length hd _ _ _ hf
    refine bind_no_timeout ?_ fun _ _ h => by cases h
    unfold rawBody
    dsimp only
    rw [hi]
    refine bind_no_timeout (by intro h; cases h) fun i _ => ?_
    split <;> (intro h; cases h)

theorem streamEnd_no_timeout (n g : Nat) (tn tg : Token) (r : Bytes) : streamEnd n g tn tg r ≠ .error .timeout := by
  unfold streamEnd
  refine bind_no_timeout (expectSkip_no_timeout _ _ _) fun _ _ => ?_
  refine bind_no_timeout (stoll_no_timeout _) fun _ _ => ?_
  refine bind_no_timeout (stoll_no_timeout _) fun _ _ => ?_
  dsimp only
  split
  · intro h; cases h
  · split <;> (intro h; cases h)

theorem toInt_no_timeout (o : SObj) : toInt o ≠ .error .timeout := by
  unfold toInt
  split <;> (intro h; cases h)

section
variable {c : Codec} {file : Bytes} {secs : List ReadSection} {need : Nat → Nat → Nat → Nat → Prop} {rank : Nat → Nat → Nat}

/-- The answers to the references that are needed, an exception for all others. -/
noncomputable def onlyNeeded (P : Nat → Nat → Prop) (r : Nat → Nat → Res Int) (k m : Nat) : Res Int :=
  open Classical in if P k m then r k m else .error .throw

theorem onlyNeeded_agrees (P : Nat → Nat → Prop) (r : Nat → Nat → Res Int) (k m : Nat) (h : P k m) : r k m = onlyNeeded P r k m := by
  unfold onlyNeeded; rw [if_pos h]

theorem storeAll_no_timeout (st : Loaded) (l : List (Nat × Obj)) : (storeAll secs st l).2 ≠ .error .timeout := by
  induction l generalizing st with
  | nil => intro h; cases h
  | cons x l ih =>
    obtain ⟨n, o⟩ := x
    unfold storeAll
    split
    · intro h; cases h
    · split
      · exact ih _
      · exact ih _

theorem fetch_ends (hc : ∀ d s, c.decode d s ≠ .error .timeout) (hg : Grounded c file secs need rank) :
    ∀ (f : Nat) (st : Loaded) (n g : Nat), Requested c file secs st → rank n g < f → (fetch c file secs f st n g).obj ≠ .error .timeout := by
  intro f
  induction f with
  | zero => intro st n g _ h; omega
  | succ f ih =>
    intro st n g hst hf
    have low : ∀ k m st, Requested c file secs st → need n g k m → (fetch c file secs f st k m).obj ≠ .error .timeout :=
      fun k m st hst h => ih st k m hst (by have := hg.lower n g k m h; omega)
    have lowInt : ∀ st, Requested c file secs st → ∀ k m, need n g k m → lookInt (fetch c file secs f st) k m ≠ .error .timeout :=
      fun st hst k m h => bind_no_timeout (low k m st hst h) fun o _ => toInt_no_timeout o
    have pos : ∀ st, Requested c file secs st → ∀ k m i, need n g k m → lookInt (fetch c file secs f st) k m = .ok i → 0 ≤ i := by
      intro st hst k m i h hi
      obtain ⟨o, ho, hi⟩ := except_bind_ok hi
      unfold toInt at hi
      split at hi
      · injection hi with hi; subst hi
        exact hg.positive n g k m h _ ⟨f, st, hst, ho⟩
      · injection hi with hi; subst hi
        exact Int.tdiv_nonneg (hg.positiveReal n g k m h _ _ ⟨f, st, hst, ho⟩) (Int.natCast_nonneg _)
      · cases hi
    have good : ∀ st, Requested c file secs st → (∀ k m, onlyNeeded (need n g) (lookInt (fetch c file secs f st)) k m ≠ .error .timeout) ∧
        ∀ k m i, onlyNeeded (need n g) (lookInt (fetch c file secs f st)) k m = .ok i → 0 ≤ i := by
      intro st hst
      refine ⟨fun k m => ?_, fun k m i => ?_⟩
      · unfold onlyNeeded; split
        · rename_i h; exact lowInt st hst k m h
        · intro h; cases h
      · unfold onlyNeeded; split
        · rename_i h; exact pos st hst k m i h
        · intro h; cases h
    cases hfr : findRead secs n g with
    | none => rw [fetch, hfr]; intro h; cases h
    | some x =>
      cases hk : x.kind with
      | free k => rw [fetch, hfr]; simp only [hk]; intro h; cases h
      | used off =>
        cases hget : st.get n g with
        | some o => rw [fetch, hfr]; simp only [hk, hget]; intro h; cases h
        | none =>
          rw [fetch_used hfr hk f hget]
          have hload : (∀ tn tg d data rest k m, streamHead (fileEnv file (lookInt (fetch c file secs f st)))
              ((fileEnv file (lookInt (fetch c file secs f st))).seek off) = .ok (tn, tg, d, data, rest) →
              valueAt (b! "Length") d ≠ some (.ref k m)) →
              loadAt (fileEnv file (lookInt (fetch c file secs f st))) n g off ≠ .error .timeout := by
            intro hno
            rw [hg.reads n g x off hfr hk _ _ (onlyNeeded_agrees (need n g) _) hno]
            exact loadAt_no_timeout ⟨hg.text, (good st hst).2, (good st hst).1⟩ n g off
          have hkeep : (∀ tn tg d data rest k m, streamHead (fileEnv file (lookInt (fetch c file secs f st)))
              ((fileEnv file (lookInt (fetch c file secs f st))).seek off) = .ok (tn, tg, d, data, rest) →
              valueAt (b! "Length") d ≠ some (.ref k m)) → (keep st n g (loadAt (fileEnv file (lookInt (fetch c file secs f st))) n g off)).obj ≠ .error .timeout := by
            intro hno
            cases hl : loadAt (fileEnv file (lookInt (fetch c file secs f st))) n g off with
            | error er => intro h; injection h with h; subst h; exact hload hno hl
            | ok o => intro h; cases h
          unfold fetchUsed
          dsimp only
          cases hs : streamHead (fileEnv file (lookInt (fetch c file secs f st))) ((fileEnv file (lookInt (fetch c file secs f st))).seek off) with
          | error er => exact hkeep fun _ _ _ _ _ _ _ h => by rw [hs] at h; cases h
          | ok y =>
            obtain ⟨tn, tg, d, data, r⟩ := y
            dsimp only
            cases hr : lengthRef d with
            | none =>
              refine hkeep fun _ _ _ _ _ k m h hv => ?_
              rw [hs] at h; injection h with h; injection h with _ h; injection h with _ h; injection h with h _
              subst h
              unfold lengthRef at hr
              rw [← valueAt_eq, hv] at hr; cases hr
            | some km =>
              obtain ⟨k, m⟩ := km
              dsimp only
              have hv : valueAt (b! "Length") d = some (.ref k m) := by
                unfold lengthRef at hr
                rw [valueAt_eq]
                split at hr
                · rename_i k' m' h; injection hr with hr; injection hr with h1 h2; rw [h, h1, h2]
                · cases hr
              have hn := hg.length n g x off hfr hk _ _ _ _ _ _ k m hs hv
              unfold fetchStream
              cases hi : (fetch c file secs f st k m).obj >>= toInt with
              | error er => intro h; injection h with h; subst h; exact lowInt st hst k m hn hi
              | ok l =>
                dsimp only
                cases ht : streamTail (fileEnv file (lookInt (fetch c file secs f st))) d data ((fetch c file secs f st k m).pos.getD data) l r with
                | error er => intro h; injection h with h; subst h; exact streamTail_no_timeout _ _ _ _ _ _ ht
                | ok y =>
                  obtain ⟨body, found, rem⟩ := y
                  dsimp only
                  cases he : streamEnd n g tn tg rem with
                  | error er => intro h; injection h with h; subst h; exact streamEnd_no_timeout _ _ _ _ _ he
                  | ok u => dsimp only; rw [keep_obj]; intro h; cases h
      | compressed sn i =>
        cases hget : st.get n g with
        | some o => rw [fetch, hfr]; simp only [hk, hget]; intro h; cases h
        | none =>
          rw [fetch, hfr]; simp only [hk, hget]
          unfold fetchCompressed
          dsimp only
          cases ho : (fetch c file secs f st sn 0).obj with
          | error er => intro h; injection h with h; subst h; exact low sn 0 st hst (hg.stream n g x sn i hfr hk) ho
          | ok o =>
            dsimp only
            split
            · intro h; cases h
            · cases o with
              | direct o => intro h; cases h
              | stream d raw =>
                have hgives : Gives c file secs sn 0 (.stream d raw) := ⟨f, st, hst, ho⟩
                have hst1 : Requested c file secs (fetch c file secs f st sn 0).st := .next f sn 0 hst
                have heads := hg.heads n g x sn i hfr hk d raw hgives
                obtain ⟨hbody, hun⟩ := hg.unpacks n g x sn i hfr hk d raw hgives
                have nat : ∀ st key, Requested c file secs st → (∀ k m, valueAt key d = some (.ref k m) → need n g k m) →
                    (lookNat (fetch c file secs f) st key d).2 ≠ .error .timeout ∧ Requested c file secs (lookNat (fetch c file secs f) st key d).1 := by
                  intro st key hst hneed
                  refine ⟨natEntry_no_timeout fun k m h => lowInt st hst k m (hneed k m h), ?_⟩
                  unfold lookNat
                  dsimp only
                  split
                  · exact .next f _ _ hst
                  · exact hst
                have hfill : (fillFrom c secs (fetch c file secs f) (fetch c file secs f st sn 0).st sn d raw).2 ≠ .error .timeout := by
                  unfold fillFrom
                  obtain ⟨n1, n2⟩ := nat _ (b! "N") hst1 fun k m h => heads k m (Or.inl h)
                  have n3 : (lookNat (fetch c file secs f) (fetch c file secs f st sn 0).st (b! "N") d).2 = natEntry ⟨[], true, _⟩ _ _ := rfl
                  generalize lookNat (fetch c file secs f) (fetch c file secs f st sn 0).st (b! "N") d = q at n1 n2 n3
                  obtain ⟨st2, q⟩ := q
                  cases q with
                  | error er => exact fun h => n1 (by injection h with h; rw [h])
                  | ok size =>
                    dsimp only at n2 ⊢
                    obtain ⟨m1, m2⟩ := nat _ (b! "First") n2 fun k m h => heads k m (Or.inr h)
                    have m3 : (lookNat (fetch c file secs f) st2 (b! "First") d).2 = natEntry ⟨[], true, _⟩ _ _ := rfl
                    generalize lookNat (fetch c file secs f) st2 (b! "First") d = q at m1 m2 m3
                    obtain ⟨st3, q⟩ := q
                    cases q with
                    | error er => exact fun h => m1 (by injection h with h; rw [h])
                    | ok first =>
                      dsimp only at m2 ⊢
                      have hu : unpack c (lookInt (fetch c file secs f st3)) d raw first size ≠ .error .timeout := by
                        rw [hun _ _ first size n3.symm m3.symm _ _ (onlyNeeded_agrees (need n g) _)]
                        exact unpack_no_timeout hc hbody (good st3 m2).2 (good st3 m2).1 first size
                      cases hq : unpack c (lookInt (fetch c file secs f st3)) d raw first size with
                      | error er => intro h; injection h with h; subst h; exact hu hq
                      | ok l =>
                        dsimp only
                        have hs := storeAll_no_timeout (secs := secs) st3 l
                        generalize storeAll secs st3 l = z at hs
                        obtain ⟨st4, z⟩ := z
                        cases z with
                        | error er => dsimp only at hs ⊢; exact hs
                        | ok u => intro h; cases h
                dsimp only
                generalize fillFrom c secs (fetch c file secs f) (fetch c file secs f st sn 0).st sn d raw = z at hfill
                obtain ⟨st5, z⟩ := z
                cases z with
                | error er => exact fun h => hfill (by injection h with h; rw [h])
                | ok u => intro h; cases h
end

end VPdf
