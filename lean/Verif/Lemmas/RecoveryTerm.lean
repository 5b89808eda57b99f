import Verif.Lemmas.Recovery
import Verif.Lemmas.ParseTerm
/-
  The search for objects ends in files without negative lengths of streams.
-/
namespace VPdf
open Spec

theorem cppAdd_no_timeout (a b : IntTy) (x y : Int) : cppAdd a b x y ≠ .error .timeout := by
  unfold cppAdd
  dsimp only
  unfold arith
  repeat' (first | split | (intro h; cases h))

theorem safeConvert_no_timeout (r v : IntTy) (x : Int) : safeConvert r v x ≠ .error .timeout := by
  unfold safeConvert
  split <;> (intro h; cases h)

theorem safeAddition_no_timeout (r a b : IntTy) (x y : Int) : safeAddition r a b x y ≠ .error .timeout := by
  unfold safeAddition
  refine bind_no_timeout (cppAdd_no_timeout _ _ _ _) (fun s _ => ?_)
  dsimp only
  split
  · split
    · split
      · intro h; cases h
      · intro h; cases h
    · intro h; cases h
  · split
    · intro h; cases h
    · intro h; cases h

theorem readField_no_timeout (w : Nat) : ∀ (acc : Int) (s : Bytes), readField w acc s ≠ .error .timeout := by
  induction w with
  | zero => intro acc s h; cases h
  | succ w ih =>
    intro acc s
    cases s with
    | nil => intro h; cases h
    | cons b s =>
      refine bind_no_timeout ?_ (fun _ _ => ih _ _)
      unfold readFieldStep
      split <;> (intro h; cases h)

theorem streamEntry_no_timeout (n : Nat) (a b c : Int) : streamEntry n a b c ≠ .error .timeout := by
  unfold streamEntry
  split
  · exact bind_no_timeout (safeConvert_no_timeout _ _ _) (fun _ _ h => by cases h)
  · split
    · exact bind_no_timeout (safeConvert_no_timeout _ _ _) (fun _ _ h => by cases h)
    · split
      · exact bind_no_timeout (safeConvert_no_timeout _ _ _) (fun _ _ h => by cases h)
      · intro h; cases h

theorem entryAdd_no_timeout (e : XEntry) (l : EntrySet) : EntrySet.add e l ≠ .error .timeout := by
  unfold EntrySet.add
  dsimp only
  repeat' (first | split | (intro h; cases h))

theorem readRows_no_timeout (w : Widths) (base n : Nat) : ∀ i s l, readRows w base n i s l ≠ .error .timeout := by
  induction n with
  | zero => intro i s l h; cases h
  | succ n ih =>
    intro i s l
    rw [readRows]
    split
    · intro h; cases h
    · dsimp only
      refine bind_no_timeout ?_ (fun ⟨e, s⟩ _ => ?_)
      · unfold readRow
        refine bind_no_timeout (readField_no_timeout _ _ _) (fun ⟨f1, s⟩ _ => ?_)
        refine bind_no_timeout (readField_no_timeout _ _ _) (fun ⟨f2, s⟩ _ => ?_)
        refine bind_no_timeout (readField_no_timeout _ _ _) (fun ⟨f3, s⟩ _ => ?_)
        refine bind_no_timeout (safeAddition_no_timeout _ _ _ _ _) (fun num _ => ?_)
        exact bind_no_timeout (streamEntry_no_timeout _ _ _ _) (fun _ _ h => by cases h)
      · exact bind_no_timeout (entryAdd_no_timeout _ _) (fun _ _ => ih _ _ _)

theorem readIndex_no_timeout (w : Widths) : ∀ ix s l, readIndex w ix s l ≠ .error .timeout
  | [], _, _ => by intro h; cases h
  | [_], _, _ => by intro h; cases h
  | base :: size :: ix, s, l => by
    rw [readIndex]
    exact bind_no_timeout (readRows_no_timeout _ _ _ _ _ _) (fun _ _ => readIndex_no_timeout w ix _ _)

theorem natList_no_timeout : ∀ l : List Obj, natList l ≠ .error .timeout
  | [] => by intro h; cases h
  | o :: l => by
    cases o with
    | int i =>
      rw [natList]
      split
      · intro h; cases h
      · exact bind_no_timeout (natList_no_timeout l) (fun _ _ h => by cases h)
    | _ => intro h; cases h

theorem rawBody_no_timeout {e : Env} (he : GoodEnv e) (d : Dict) (off : Nat) : rawBody e d off ≠ .error .timeout := by
  unfold rawBody
  split
  · intro h; cases h
  · refine bind_no_timeout (asInt_no_timeout he _) (fun i _ => ?_)
    split
    · intro h; cases h
    · intro h; cases h

theorem streamSection_no_timeout {c : Codec} (hc : ∀ d s, c.decode d s ≠ .error .timeout) {e : Env} (he : GoodEnv e) (d : Dict) (off : Nat) :
    streamSection c e d off ≠ .error .timeout := by
  unfold streamSection
  split
  · refine bind_no_timeout (natList_no_timeout _) (fun w _ => ?_)
    refine bind_no_timeout (asInt_no_timeout he _) (fun size _ => ?_)
    refine bind_no_timeout ?_ (fun index _ => ?_)
    · split
      · split <;> (intro h; cases h)
      · exact natList_no_timeout _
      · intro h; cases h
    refine bind_no_timeout (rawBody_no_timeout he _ _) (fun raw _ => ?_)
    refine bind_no_timeout (hc _ _) (fun body _ => ?_)
    split
    · exact bind_no_timeout (readIndex_no_timeout _ _ _ _) (fun _ _ h => by cases h)
    · intro h; cases h
  · intro h; cases h

theorem foundSection_no_timeout {c : Codec} (hc : ∀ d s, c.decode d s ≠ .error .timeout) {e : Env} (he : GoodEnv e) (p : PObj) :
    foundSection c e p ≠ .error .timeout := by
  unfold foundSection
  split
  · intro h; cases h
  · split
    · intro h; cases h
    · split
      · exact bind_no_timeout (streamSection_no_timeout hc he _ _) (fun _ _ h => by cases h)
      · intro h; cases h
    · intro h; cases h

theorem stoull_no_timeout (s : Bytes) : stoull s ≠ .error .timeout := by
  unfold stoull
  refine bind_no_timeout ?_ (fun v _ => ?_)
  · intro h
    have := stoll_no_timeout s
    unfold stoll at this
    rw [h] at this
    exact this rfl
  · split <;> (intro h; cases h)

theorem skipLine_no_timeout (t : Token) (s r : Bytes) : skipLine t s r ≠ .error .timeout := by
  unfold skipLine; split <;> (intro h; cases h)

theorem skipRest_no_timeout (t : Token) (s r : Bytes) : skipRest t s r ≠ .error .timeout := by
  unfold skipRest; split
  · intro h; cases h
  · exact skipLine_no_timeout t s r

theorem skipLine_suffix {t : Token} {s r r' : Bytes} (h : skipLine t s r = .ok r') : r' <:+ r := by
  unfold skipLine at h
  split at h
  · cases h
  · cases h; exact (readLine_suffix r).1

theorem skipRest_suffix {t : Token} {s r r' : Bytes} (h : skipRest t s r = .ok r') : r' <:+ r := by
  unfold skipRest at h
  split at h
  · cases h; exact List.suffix_refl _
  · exact skipLine_suffix h

/-- One round ends, and consumes input. -/
theorem findRound_ends {c : Codec} (hc : ∀ d s, c.decode d s ≠ .error .timeout) {e : Env} (he : GoodEnv e) (s : Bytes) (hs : s <:+ e.whole)
    (st : Found) : findRound c e s st ≠ .error .timeout ∧
      ∀ st' r, findRound c e s st = .ok (some (st', r)) → r <:+ e.whole ∧ r.length < s.length := by
  constructor
  · unfold findRound
    refine bind_no_timeout (readToken_no_timeout _ _) (fun ⟨t, r⟩ ht => ?_)
    have hr := (readToken_progress' _ _ _ _ ht).1.trans hs
    dsimp only
    refine ite_ne (fun _ => by intro h; cases h) (fun _ => ?_)
    refine ite_ne (fun _ => by intro h; cases h) (fun _ => ?_)
    refine ite_ne (fun _ => ?_) (fun _ => ?_)
    · refine bind_no_timeout (expectSkip_no_timeout _ _ _) (fun ⟨t2, r2⟩ h2 => ?_)
      exact bind_no_timeout ((terminates he _).m1 r2 [] ((expectSkip_suffix h2).trans hr) (Nat.le_refl _)) (fun _ _ h => by cases h)
    refine ite_ne (fun _ => ?_) (fun _ => ?_)
    · refine bind_no_timeout (readTokenSkip_no_timeout _ _) (fun ⟨t2, r2⟩ h2 => ?_)
      refine ite_ne (fun _ => ?_) (fun _ => by intro h; cases h)
      exact bind_no_timeout (stoll_no_timeout _) (fun _ _ h => by cases h)
    refine ite_ne (fun _ => ?_) (fun _ => ?_)
    · refine bind_no_timeout (readToken_no_timeout _ _) (fun ⟨tg, rg⟩ hg => ?_)
      have hrg := (readToken_progress' _ _ _ _ hg).1.trans hr
      refine ite_ne (fun _ => ?_) (fun _ => ?_)
      · refine bind_no_timeout (readToken_no_timeout _ _) (fun ⟨tb, rb⟩ hb => ?_)
        have hrb := (readToken_progress' _ _ _ _ hb).1.trans hrg
        refine ite_ne (fun _ => ?_) (fun _ => ?_)
        · refine bind_no_timeout ?_ (fun _ _ h => by cases h)
          unfold findObject
          refine bind_no_timeout (stoull_no_timeout _) (fun n _ => ?_)
          refine bind_no_timeout (stoull_no_timeout _) (fun g _ => ?_)
          split
          · intro h; cases h
          dsimp only
          refine bind_no_timeout ((terminates he _).d1 rb hrb (by omega)) (fun ⟨o, r3⟩ _ => ?_)
          refine bind_no_timeout (foundSection_no_timeout hc he _) (fun _ _ => ?_)
          exact bind_no_timeout (readTokenSkip_no_timeout _ _) (fun _ _ h => by cases h)
        · exact bind_no_timeout (skipRest_no_timeout _ _ _) (fun _ _ h => by cases h)
      · exact bind_no_timeout (skipRest_no_timeout _ _ _) (fun _ _ h => by cases h)
    · exact bind_no_timeout (skipLine_no_timeout _ _ _) (fun _ _ h => by cases h)
  · intro st' r h
    unfold findRound at h
    obtain ⟨⟨t, r1⟩, ht, h⟩ := bind_ok h
    have hr1 := (readToken_progress' _ _ _ _ ht).1
    dsimp only at h
    split at h
    · cases h
    rename_i hne
    have hlt := readToken_lt ht (by simpa using hne)
    have fin : ∀ q : Bytes, q <:+ r1 → q <:+ e.whole ∧ q.length < s.length := fun q hq =>
      ⟨hq.trans (hr1.trans hs), by have := hq.length_le; omega⟩
    split at h
    · cases h; exact fin _ (List.suffix_refl _)
    split at h
    · obtain ⟨⟨t2, r2⟩, h2, h⟩ := bind_ok h
      obtain ⟨⟨d, r3⟩, h3, h⟩ := bind_ok h
      have hr2 := expectSkip_suffix h2
      have := (terminates he _).m2 r2 [] d r3 (hr2.trans (hr1.trans hs)) (fun _ h => by cases h) h3
      have := hr2.length_le
      cases h
      exact ⟨by tauto, by dsimp only; omega⟩
    split at h
    · obtain ⟨⟨t2, r2⟩, h2, h⟩ := bind_ok h
      dsimp only at h
      split at h
      · obtain ⟨i, -, h⟩ := bind_ok h
        cases h
        exact fin _ (readTokenSkip_progress h2).1
      · cases h; exact fin _ (List.suffix_refl _)
    split at h
    · obtain ⟨⟨tg, rg⟩, hg, h⟩ := bind_ok h
      have hrg := (readToken_progress' _ _ _ _ hg).1
      dsimp only at h
      split at h
      · obtain ⟨⟨tb, rb⟩, hb, h⟩ := bind_ok h
        have hrb := (readToken_progress' _ _ _ _ hb).1
        dsimp only at h
        split at h
        · obtain ⟨⟨st2, r4⟩, hx, h⟩ := bind_ok h
          cases h
          unfold findObject at hx
          obtain ⟨n, -, hx⟩ := bind_ok hx
          obtain ⟨g, -, hx⟩ := bind_ok hx
          split at hx
          · cases hx
          dsimp only at hx
          obtain ⟨⟨o, r3⟩, ho, hx⟩ := bind_ok hx
          obtain ⟨secs, -, hx⟩ := bind_ok hx
          obtain ⟨⟨te, re⟩, hte, hx⟩ := bind_ok hx
          cases hx
          have hd := (terminates he _).d2 rb o r3 (hrb.trans (hrg.trans (hr1.trans hs))) ho
          have hre := (readTokenSkip_progress hte).1
          have l1 := hre.length_le
          have l2 := (hrb.trans hrg).length_le
          exact ⟨hre.trans hd.1, by dsimp only at l1 ⊢; omega⟩
        · obtain ⟨q, hq, h⟩ := bind_ok h
          cases h
          exact fin _ ((skipRest_suffix hq).trans (hrb.trans hrg))
      · obtain ⟨q, hq, h⟩ := bind_ok h
        cases h
        exact fin _ ((skipRest_suffix hq).trans hrg)
    · obtain ⟨q, hq, h⟩ := bind_ok h
      cases h
      exact fin _ (skipLine_suffix hq)

theorem findLoop_ends {c : Codec} (hc : ∀ d s, c.decode d s ≠ .error .timeout) {e : Env} (he : GoodEnv e) (f : Nat) :
    ∀ (s : Bytes) (st : Found), s <:+ e.whole → s.length < f → findLoop c e f s st ≠ .error .timeout := by
  induction f with
  | zero => intro s st _ h; omega
  | succ f ih =>
    intro s st hs hf
    obtain ⟨h1, h2⟩ := findRound_ends hc he s hs st
    rw [findLoop]
    refine bind_no_timeout h1 (fun x hx => ?_)
    cases x with
    | none => intro h; cases h
    | some p =>
      obtain ⟨st', r⟩ := p
      obtain ⟨g1, g2⟩ := h2 st' r hx
      exact ih r st' g1 (by omega)

end VPdf
