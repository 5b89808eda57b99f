import Verif.Lemmas.LoadOrder
import Verif.Spec.Loading
import Verif.Lemmas.Parse
/-
  Loading objects with the position of the reader.
-/
namespace VPdf
open Spec

/-! ### a stream and its parts -/

theorem streamHead_parts {e : Env} {s : Bytes} {x : Token × Token × Dict × Nat × Bytes} (h : streamHead e s = .ok x) :
    ∃ s1 s2 s3 t3 t4 r4 t5 r5 t6 r6, expectSkip parserKeywords .integer s = .ok (x.1, s1) ∧
      expectSkip parserKeywords .integer s1 = .ok (x.2.1, s2) ∧ expectSkip parserKeywords (.keyword (b! "obj")) s2 = .ok (t3, s3) ∧
      readTokenSkip parserKeywords s3 = .ok (t4, r4) ∧ t4.type = .dictBegin ∧
      readDict e (2 * s3.length + 1) r4 [] = .ok (x.2.2.1, r5) ∧
      readTokenSkip parserKeywords r5 = .ok (t5, r6) ∧ t5.type = .keyword (b! "stream") ∧
      readToken parserKeywords r6 = .ok (t6, x.2.2.2.2) ∧ t6.type = .eol ∧ x.2.2.2.1 = e.pos x.2.2.2.2 := by
  unfold streamHead at h
  obtain ⟨⟨tn, s1⟩, h1, h⟩ := except_bind_ok h
  obtain ⟨⟨tg, s2⟩, h2, h⟩ := except_bind_ok h
  obtain ⟨⟨t3, s3⟩, h3, h⟩ := except_bind_ok h
  obtain ⟨⟨t4, r4⟩, h4, h⟩ := except_bind_ok h
  dsimp only at h
  by_cases hc : (t4.type != .dictBegin) = true
  · rw [if_pos hc] at h; cases h
  rw [if_neg hc] at h
  obtain ⟨⟨d, r5⟩, h5, h⟩ := except_bind_ok h
  obtain ⟨⟨t5, r6⟩, h6, h⟩ := except_bind_ok h
  dsimp only at h
  by_cases hc5 : (t5.type != .keyword (b! "stream")) = true
  · rw [if_pos hc5] at h; cases h
  rw [if_neg hc5] at h
  obtain ⟨⟨t6, r7⟩, h7, h⟩ := except_bind_ok h
  dsimp only at h
  by_cases hc6 : (t6.type != .eol) = true
  · rw [if_pos hc6] at h; cases h
  rw [if_neg hc6] at h
  injection h with h
  subst h
  exact ⟨s1, s2, s3, t3, t4, r4, t5, r5, t6, r6, h1, h2, h3, h4, by simpa using hc, h5, h6, by simpa using hc5, h7,
    by simpa using hc6, rfl⟩

/-- Reading a stream whose Length is a reference. -/
theorem parse_head {e : Env} (hi : e.initialized = true) {s : Bytes} {tn tg : Token} {d : Dict} {data : Nat} {r : Bytes}
    (h : streamHead e s = .ok (tn, tg, d, data, r)) {k m : Nat} (hl : valueAt (b! "Length") d = some (.ref k m)) :
    ∃ s1 s2 s3 t3, expectSkip parserKeywords .integer s = .ok (tn, s1) ∧
      expectSkip parserKeywords .integer s1 = .ok (tg, s2) ∧ expectSkip parserKeywords (.keyword (b! "obj")) s2 = .ok (t3, s3) ∧
      parse e s3 = (do
        let len ← e.resolveInt k m
        let (t3, r3) ← readTokenSkip parserKeywords (e.seek (data + len))
        if t3.type == .keyword (b! "endstream") then pure (.stream d data, r3)
        else do
          let (d', rem) ← streamFallback e d data (r.length + 1) r
          pure (.stream d' data, rem)) := by
  obtain ⟨s1, s2, s3, t3, t4, r4, t5, r5, t6, r6, h1, h2, h3, h4, h5, h6, h7, h8, h9, h10, h11⟩ := streamHead_parts h
  dsimp only at h1 h2 h6 h9 h11
  refine ⟨s1, s2, s3, t3, h1, h2, h3, ?_⟩
  unfold parse
  rw [show 2 * s3.length + 2 = (2 * s3.length + 1) + 1 from rfl, readDirect, h4, ok_bind]
  dsimp only
  rw [h5]
  dsimp only
  rw [h6, ok_bind]
  dsimp only
  unfold readStreamPart
  rw [h7, ok_bind]
  dsimp only
  rw [if_pos (by rw [h8]; decide), h9, ok_bind]
  dsimp only
  rw [if_neg (by rw [h10]; decide), ← valueAt_eq, hl]
  dsimp only
  rw [hi, ← h11]
  rfl

/-- The header of a stream whose Length is a reference does not change when the data are searched for their end. -/
theorem streamFallback_ref {e : Env} (hi : e.initialized = true) {d : Dict} {k m : Nat} (hl : valueAt (b! "Length") d = some (.ref k m))
    (off : Nat) : ∀ (f : Nat) (s : Bytes) (d' : Dict) (rem : Bytes), streamFallback e d off f s = .ok (d', rem) → d' = d := by
  intro f
  induction f with
  | zero => intro s d' rem h; cases h
  | succ f ih =>
    intro s d' rem h
    cases s with
    | nil => cases h
    | cons b s =>
      rw [streamFallback.eq_def] at h
      dsimp only at h
      cases hf : findSub (b! "endstream") (readLine (b :: s)).1 with
      | none => rw [hf] at h; exact ih _ _ _ h
      | some p =>
        rw [hf] at h
        dsimp only at h
        obtain ⟨_, _, h⟩ := except_bind_ok h
        obtain ⟨x, _, h⟩ := except_bind_ok h
        obtain ⟨d1, hd, h⟩ := except_bind_ok h
        injection h with h; injection h with h _
        rw [← h]
        unfold correctLength at hd
        rw [valueAt_eq] at hl
        rw [hl] at hd
        dsimp only at hd
        rw [if_pos hi] at hd
        obtain ⟨_, _, hd⟩ := except_bind_ok hd
        injection hd with hd; exact hd.symm

/-- What is parsed at the head of a stream with a reference as its Length. -/
theorem head_parsed {e : Env} (hi : e.initialized = true) {s : Bytes} {tn tg : Token} {d : Dict} {data : Nat} {r : Bytes}
    (h : streamHead e s = .ok (tn, tg, d, data, r)) {k m : Nat} (hl : valueAt (b! "Length") d = some (.ref k m)) {a b : Nat} {p : PObj}
    {rest : Bytes} (hp : parseIndirect e s = .ok (a, b, p, rest)) : p = .stream d data := by
  obtain ⟨s1, s2, s3, t3, q1, q2, q3, q4⟩ := parse_head hi h hl
  unfold parseIndirect at hp
  rw [q1, ok_bind] at hp; dsimp only at hp
  rw [q2, ok_bind] at hp; dsimp only at hp
  rw [q3, ok_bind] at hp; dsimp only at hp
  obtain ⟨⟨o', s4⟩, h2, hp⟩ := except_bind_ok hp
  obtain ⟨_, _, hp⟩ := except_bind_ok hp
  obtain ⟨a', _, hp⟩ := except_bind_ok hp
  obtain ⟨b', _, hp⟩ := except_bind_ok hp
  have ho : o' = p := by
    by_cases hc : 0 ≤ a' ∧ 0 ≤ b' ∧ b' ≤ 65535
    · rw [if_pos hc] at hp
      injection hp with hp; injection hp with _ hp; injection hp with _ hp; injection hp with hp
    · rw [if_neg hc] at hp; cases hp
  subst ho
  rw [q4] at h2
  obtain ⟨len, _, h2⟩ := except_bind_ok h2
  obtain ⟨⟨t5, r5⟩, _, h2⟩ := except_bind_ok h2
  dsimp only at h2
  by_cases hc : (t5.type == .keyword (b! "endstream")) = true
  · rw [if_pos hc] at h2; injection h2 with h2; injection h2 with h2; exact h2.symm
  · rw [if_neg hc] at h2
    obtain ⟨⟨d1, rem⟩, hf, h2⟩ := except_bind_ok h2
    injection h2 with h2; injection h2 with h2
    rw [← h2, streamFallback_ref hi hl _ _ _ _ _ hf]

theorem streamHead_le {e e' : Env} (h : Env.Le e e') {s : Bytes} {x : Token × Token × Dict × Nat × Bytes} (hx : streamHead e s = .ok x) :
    streamHead e' s = .ok x := by
  obtain ⟨s1, s2, s3, t3, t4, r4, t5, r5, t6, r6, h1, h2, h3, h4, h5, h6, h7, h8, h9, h10, h11⟩ := streamHead_parts hx
  unfold streamHead
  rw [h1, ok_bind]; dsimp only
  rw [h2, ok_bind]; dsimp only
  rw [h3, ok_bind]; dsimp only
  rw [h4, ok_bind]; dsimp only
  rw [if_neg (by rw [h5]; decide), (read_le h _).2.2 _ _ _ h6, ok_bind]; dsimp only
  rw [h7, ok_bind]; dsimp only
  rw [if_neg (by rw [h8]; decide), h9, ok_bind]; dsimp only
  rw [if_neg (by rw [h10]; decide), h.pos, ← h11]
  rfl

/-- The number of the object is in front of it. -/
theorem loadAt_number {e : Env} {n g : Nat} {off : Int} {x : Token × Token × Dict × Nat × Bytes}
    (h : streamHead e (e.seek off) = .ok x) {o : SObj} (ho : loadAt e n g off = .ok o) :
    stoll x.1.value = .ok (n : Int) ∧ stoll x.2.1.value = .ok (g : Int) := by
  obtain ⟨s1, s2, s3, t3, t4, r4, t5, r5, t6, r6, h1, h2, h3, _⟩ := streamHead_parts h
  unfold loadAt parseIndirect at ho
  rw [h1, ok_bind] at ho; dsimp only at ho
  rw [h2, ok_bind] at ho; dsimp only at ho
  rw [h3, ok_bind] at ho; dsimp only at ho
  obtain ⟨⟨n', g', o', r'⟩, ho, hb⟩ := except_bind_ok ho
  obtain ⟨_, _, ho⟩ := except_bind_ok ho
  obtain ⟨_, _, ho⟩ := except_bind_ok ho
  obtain ⟨a, ha, ho⟩ := except_bind_ok ho
  obtain ⟨b, hb', ho⟩ := except_bind_ok ho
  rw [ha, hb']
  by_cases hc : 0 ≤ a ∧ 0 ≤ b ∧ b ≤ 65535
  · rw [if_pos hc] at ho
    injection ho with ho
    injection ho with ho1 ho; injection ho with ho2 ho
    dsimp only at hb
    by_cases hng : n' ≠ n ∨ g' ≠ g
    · rw [if_pos hng] at hb; cases hb
    · refine ⟨by congr 1; omega, by congr 1; omega⟩
  · rw [if_neg hc] at ho; cases ho

theorem streamEnd_number {n g : Nat} {tn tg : Token} {r : Bytes} (h : streamEnd n g tn tg r = .ok ()) :
    stoll tn.value = .ok (n : Int) ∧ stoll tg.value = .ok (g : Int) := by
  unfold streamEnd at h
  obtain ⟨_, _, h⟩ := except_bind_ok h
  obtain ⟨a, ha, h⟩ := except_bind_ok h
  obtain ⟨b, hb, h⟩ := except_bind_ok h
  rw [ha, hb]
  by_cases hc : a < 0 ∨ b < 0 ∨ 65535 < b
  · rw [if_pos hc] at h; cases h
  · rw [if_neg hc] at h
    by_cases hng : a.toNat ≠ n ∨ b.toNat ≠ g
    · rw [if_pos hng] at h; cases h
    · exact ⟨by congr 1; omega, by congr 1; omega⟩

/-- Loading such a stream when the length is right. -/
theorem loadAt_head {e : Env} (hi : e.initialized = true) {n g : Nat} {off : Int} {tn tg : Token} {d : Dict} {data : Nat} {r : Bytes}
    (h : streamHead e (e.seek off) = .ok (tn, tg, d, data, r)) {k m : Nat} (hl : valueAt (b! "Length") d = some (.ref k m))
    {l : Int} (hr : e.resolveInt k m = .ok l) {t : Token} {r3 : Bytes}
    (ht : readTokenSkip parserKeywords (e.seek (data + l)) = .ok (t, r3)) (hty : t.type = .keyword (b! "endstream")) (o : SObj) :
    loadAt e n g off = .ok o ↔ (0 ≤ l ∧ streamEnd n g tn tg r3 = .ok () ∧ o = .stream d ((e.whole.drop data).take l.toNat)) := by
  obtain ⟨s1, s2, s3, t3, h1, h2, h3, h4⟩ := parse_head hi h hl
  have h4 : parse e s3 = .ok (.stream d data, r3) := by
    rw [h4, hr, ok_bind, ht, ok_bind]
    dsimp only
    rw [if_pos (by rw [hty]; decide)]; rfl
  have hb : rawBody e d data = if l < 0 then .error .conversion else .ok ((e.whole.drop data).take l.toNat) := by
    unfold rawBody
    rw [← valueAt_eq, hl]
    show (e.resolveInt k m >>= _) = _
    rw [hr, ok_bind]
    by_cases hn : l < 0
    · rw [if_pos hn, if_pos hn]; rfl
    · rw [if_neg hn, if_neg hn]; rfl
  unfold loadAt parseIndirect streamEnd
  rw [h1, ok_bind]; dsimp only
  rw [h2, ok_bind]; dsimp only
  rw [h3, ok_bind]; dsimp only
  rw [h4, ok_bind]; dsimp only
  cases h5 : expectSkip parserKeywords (.keyword (b! "endobj")) r3 with
  | error er => simp [bind, Except.bind]
  | ok x =>
    obtain ⟨t5, r5⟩ := x
    rw [ok_bind, ok_bind]; dsimp only
    cases h6 : stoll tn.value with
    | error er => simp [bind, Except.bind]
    | ok n' =>
      rw [ok_bind, ok_bind]
      cases h7 : stoll tg.value with
      | error er => simp [bind, Except.bind]
      | ok g' =>
        rw [ok_bind, ok_bind]
        by_cases hc : 0 ≤ n' ∧ 0 ≤ g' ∧ g' ≤ 65535
        · rw [if_pos hc, if_neg (by omega)]
          show (if _ then _ else _) = _ ↔ _
          by_cases hng : n'.toNat ≠ n ∨ g'.toNat ≠ g
          · rw [if_pos hng, if_pos hng]
            constructor
            · intro q; cases q
            · rintro ⟨_, q, _⟩; cases q
          · rw [if_neg hng, if_neg hng]
            show (rawBody e d data >>= _) = _ ↔ _
            rw [hb]
            by_cases hn : l < 0
            · rw [if_pos hn]
              constructor
              · intro q; cases q
              · rintro ⟨q, _⟩; omega
            · rw [if_neg hn, ok_bind]
              constructor
              · intro q; injection q with q; exact ⟨by omega, rfl, q.symm⟩
              · rintro ⟨_, _, q⟩; rw [q]; rfl
        · rw [if_neg hc, if_pos (by omega)]
          constructor
          · intro q; cases q
          · rintro ⟨_, q, _⟩; cases q

theorem loadAt_head_error {e : Env} (hi : e.initialized = true) {n g : Nat} {off : Int} {tn tg : Token} {d : Dict} {data : Nat} {r : Bytes}
    (h : streamHead e (e.seek off) = .ok (tn, tg, d, data, r)) {k m : Nat} (hl : valueAt (b! "Length") d = some (.ref k m))
    {er : Fault} (hr : e.resolveInt k m = .error er) : loadAt e n g off = .error er := by
  obtain ⟨s1, s2, s3, t3, h1, h2, h3, h4⟩ := parse_head hi h hl
  unfold loadAt parseIndirect
  rw [h1, ok_bind]; dsimp only
  rw [h2, ok_bind]; dsimp only
  rw [h3, ok_bind]; dsimp only
  rw [h4, hr]; rfl

variable {c : Codec} {file : Bytes} {secs : List ReadSection}

/-! ### the cases of a request -/

theorem fetch_none {n g : Nat} (h : findRead secs n g = none) (f : Nat) (st : Loaded) :
    fetch c file secs (f + 1) st n g = ⟨st, none, .ok (.direct .null)⟩ := by
  rw [fetch]; simp only [h]

theorem fetch_free {n g k : Nat} {x : XEntry} (h : findRead secs n g = some x) (hx : x.kind = .free k) (f : Nat) (st : Loaded) :
    fetch c file secs (f + 1) st n g = ⟨st, none, .ok (.direct .null)⟩ := by
  rw [fetch]; simp only [h, hx]

theorem fetch_cached {n g : Nat} {x : XEntry} (h : findRead secs n g = some x) (hx : ∀ k, x.kind ≠ .free k) (f : Nat) {st : Loaded}
    {o : SObj} (ho : st.get n g = some o) : fetch c file secs (f + 1) st n g = ⟨st, none, .ok o⟩ := by
  rw [fetch]; simp only [h]
  cases hk : x.kind with
  | free k => exact absurd hk (hx k)
  | used off => simp only [ho]
  | compressed s i => simp only [ho]

theorem fetch_used {n g : Nat} {x : XEntry} {off : Int} (h : findRead secs n g = some x) (hx : x.kind = .used off) (f : Nat)
    {st : Loaded} (ho : st.get n g = none) :
    fetch c file secs (f + 1) st n g = fetchUsed file (fetch c file secs f) st n g off := by
  rw [fetch]; simp only [h, hx, ho]

theorem fetch_compressed {n g sn i : Nat} {x : XEntry} (h : findRead secs n g = some x) (hx : x.kind = .compressed sn i) (f : Nat)
    {st : Loaded} (ho : st.get n g = none) :
    fetch c file secs (f + 1) st n g = fetchCompressed c file secs (fetch c file secs f) st n g sn := by
  rw [fetch]; simp only [h, hx, ho]

theorem keep_pos (st : Loaded) (n g : Nat) (r : Res SObj) : (keep st n g r).pos = none := by cases r <;> rfl

theorem keep_obj (st : Loaded) (n g : Nat) (r : Res SObj) : (keep st n g r).obj = r := by cases r <;> rfl

theorem fetchStream_pos (e : Env) (n g k m : Nat) (tn tg : Token) (d : Dict) (data : Nat) (r : Bytes) (len : Fetch) :
    (fetchStream e n g k m tn tg d data r len).pos = none := by
  unfold fetchStream
  cases len.obj >>= toInt with
  | error er => rfl
  | ok l =>
    dsimp only
    cases streamTail e d data (len.pos.getD data) l r with
    | error er => rfl
    | ok x =>
      obtain ⟨body, found, rem⟩ := x
      dsimp only
      cases streamEnd n g tn tg rem with
      | error er => rfl
      | ok u => exact keep_pos _ _ _ _

theorem fetchUsed_pos (look : Loaded → Nat → Nat → Fetch) (st : Loaded) (n g : Nat) (off : Int) :
    (fetchUsed file look st n g off).pos = none := by
  unfold fetchUsed
  dsimp only
  cases streamHead (fileEnv file (lookInt (look st))) ((fileEnv file (lookInt (look st))).seek off) with
  | error er => exact keep_pos _ _ _ _
  | ok x =>
    obtain ⟨tn, tg, d, data, r⟩ := x
    dsimp only
    cases lengthRef d with
    | none => exact keep_pos _ _ _ _
    | some p => exact fetchStream_pos _ _ _ _ _ _ _ _ _ _ _

/-- Loading an object that is not in an object stream leaves the reader where it was. -/
theorem fetch_pos {n g : Nat} (h : ∀ x, findRead secs n g = some x → ∀ sn i, x.kind ≠ .compressed sn i) (f : Nat) (st : Loaded) :
    (fetch c file secs f st n g).pos = none := by
  cases f with
  | zero => rw [fetch]
  | succ f =>
    cases hf : findRead secs n g with
    | none => rw [fetch_none hf]
    | some x =>
      cases hk : x.kind with
      | free k => rw [fetch_free hf hk]
      | used off =>
        cases hg : st.get n g with
        | some o => rw [fetch_cached hf (by simp [hk]) f hg]
        | none => rw [fetch_used hf hk f hg]; exact fetchUsed_pos _ _ _ _ _
      | compressed sn i => exact absurd hk (h x hf sn i)

/-! ### the values -/

theorem resolveIn_eq (f : Nat) (st : Loaded) (n g : Nat) :
    resolveIn c file secs f st n g = (loadStep c file secs f st n g).2 >>= toInt := by
  unfold resolveIn
  cases (loadStep c file secs f st n g).2 with
  | error e => rfl
  | ok o =>
    rw [ok_bind, ok_bind]
    rcases o with o | ⟨d, b⟩
    · cases o <;> rfl
    · rfl

theorem lengthRef_some {d : Dict} {k m : Nat} (h : lengthRef d = some (k, m)) : valueAt (b! "Length") d = some (.ref k m) := by
  rw [valueAt_eq]
  unfold lengthRef at h
  cases hf : mapFind (b! "Length") d with
  | none => rw [hf] at h; cases h
  | some o =>
    rw [hf] at h
    cases o <;> simp at h
    obtain ⟨rfl, rfl⟩ := h; rfl

/-- A used entry in a file with plain lengths: the state without the object, and the object. -/
theorem fetchUsed_spec (hp : PlainLengths c file secs) {n g : Nat} {x : XEntry} {off : Int} (hf : findRead secs n g = some x)
    (hk : x.kind = .used off) (f : Nat) (st : Loaded) (K : Nat)
    (hle : ∀ a b i, lookInt (fetch c file secs f st) a b = .ok i → resolveIn c file secs K {} a b = .ok i) :
    ∃ st0 r, (st0 = st ∨ ∃ k m, st0 = (fetch c file secs f st k m).st) ∧
      fetchUsed file (fetch c file secs f) st n g off = keep st0 n g r ∧
      ∀ o, r = .ok o ↔ loadAt (fileEnv file (lookInt (fetch c file secs f st))) n g off = .ok o := by
  unfold fetchUsed
  dsimp only
  cases hs : streamHead (fileEnv file (lookInt (fetch c file secs f st)))
      ((fileEnv file (lookInt (fetch c file secs f st))).seek off) with
  | error er => exact ⟨st, _, .inl rfl, rfl, fun o => Iff.rfl⟩
  | ok y =>
    obtain ⟨tn, tg, d, data, r⟩ := y
    dsimp only
    cases hl : lengthRef d with
    | none => exact ⟨st, _, .inl rfl, rfl, fun o => Iff.rfl⟩
    | some p =>
      obtain ⟨k, m⟩ := p
      have hl' := lengthRef_some hl
      dsimp only
      -- an object with another number is refused
      by_cases hnum : stoll tn.value = .ok (n : Int) ∧ stoll tg.value = .ok (g : Int)
      swap
      · have hno : ∀ o, loadAt (fileEnv file (lookInt (fetch c file secs f st))) n g off ≠ .ok o :=
          fun o ho => hnum (loadAt_number hs ho)
        have herr : ∃ er, fetchStream (fileEnv file (lookInt (fetch c file secs f st))) n g k m tn tg d data r
            (fetch c file secs f st k m) = keep (fetch c file secs f st k m).st n g (.error er) := by
          unfold fetchStream
          cases (fetch c file secs f st k m).obj >>= toInt with
          | error er => exact ⟨er, rfl⟩
          | ok l =>
            dsimp only
            cases streamTail (fileEnv file (lookInt (fetch c file secs f st))) d data ((fetch c file secs f st k m).pos.getD data) l r with
            | error er => exact ⟨er, rfl⟩
            | ok z =>
              obtain ⟨body, found, rem⟩ := z
              dsimp only
              cases he : streamEnd n g tn tg rem with
              | error er => exact ⟨er, rfl⟩
              | ok u => exact absurd (streamEnd_number he) hnum
        obtain ⟨er, herr⟩ := herr
        exact ⟨_, _, .inr ⟨k, m, rfl⟩, herr, fun o => ⟨fun q => (by cases q), fun q => absurd q (hno o)⟩⟩
      have hoff : 0 ≤ off := by
        by_contra hneg
        rw [show (fileEnv file (lookInt (fetch c file secs f st))).seek off = [] from if_pos (by omega)] at hs
        obtain ⟨_, _, _, _, _, _, _, _, _, _, h1, _⟩ := streamHead_parts hs
        have : expectSkip parserKeywords .integer [] = .error .throw := by decide +kernel
        rw [this] at h1; cases h1
      have hat : RefLengthAt c file secs off n g d data k m := by
        refine ⟨K, tn, tg, r, ?_, hnum.1, hnum.2, hl'⟩
        have := streamHead_le (fileEnv_le hle) hs
        rw [show (fileEnv file (lookInt (fetch c file secs f st))).seek off = file.drop off.toNat from if_neg (by omega)] at this
        exact this
      unfold fetchStream
      cases hlen : (fetch c file secs f st k m).obj >>= toInt with
      | error er =>
        refine ⟨_, .error er, .inr ⟨k, m, rfl⟩, rfl, fun o => ?_⟩
        rw [loadAt_head_error rfl hs hl' (er := er) hlen]
      | ok l =>
        obtain ⟨t, r3, ht, hty, hpos⟩ := hp.right n g x off hf hk d data k m hat K l (hle k m l hlen)
        have ht' : readTokenSkip parserKeywords ((fileEnv file (lookInt (fetch c file secs f st))).seek (data + l)) = .ok (t, r3) := by
          unfold Env.seek
          rw [if_neg (by omega)]; exact ht
        have iff := loadAt_head (n := n) (g := g) rfl hs hl' (l := l) hlen ht' hty
        have hpn : (fetch c file secs f st k m).pos = none := fetch_pos (hp.outside n g x off hf hk d data k m hat) f st
        dsimp only
        rw [hpn]
        have hst : streamTail (fileEnv file (lookInt (fetch c file secs f st))) d data data l r =
            if l < 0 then .error .conversion else .ok ((file.drop data).take l.toNat, none, r3) := by
          unfold streamTail
          rw [ht', ok_bind]
          dsimp only
          rw [if_pos (by rw [hty]; decide)]
          by_cases hn : l < 0
          · rw [if_pos hn, if_pos hn]; rfl
          · rw [if_neg hn, if_neg hn]; rfl
        rw [Option.getD_none, hst]
        by_cases hn : l < 0
        · rw [if_pos hn]
          refine ⟨_, .error .conversion, .inr ⟨k, m, rfl⟩, rfl, fun o => ?_⟩
          rw [iff]
          constructor
          · intro q; cases q
          · rintro ⟨q, _⟩; omega
        · rw [if_neg hn]
          dsimp only
          cases he : streamEnd n g tn tg r3 with
          | error er =>
            refine ⟨_, .error er, .inr ⟨k, m, rfl⟩, rfl, fun o => ?_⟩
            rw [iff, he]
            constructor
            · intro q; cases q
            · rintro ⟨_, q, _⟩; cases q
          | ok u =>
            refine ⟨_, .ok (.stream d ((file.drop data).take l.toNat)), .inr ⟨k, m, rfl⟩, rfl, fun o => ?_⟩
            rw [iff, he]
            constructor
            · intro q; injection q with q; exact ⟨by omega, rfl, q.symm⟩
            · rintro ⟨_, _, q⟩; rw [q]; rfl

/-- What requests of depth `f` do to a state whose values agree with those of depth `k`. -/
def Sees (c : Codec) (file : Bytes) (secs : List ReadSection) (f k k' : Nat) (look : Loaded → Nat → Nat → Fetch) : Prop :=
  k ≤ k' ∧ ∀ st, LoadInv c file secs k st → ∀ n g,
    LoadInv c file secs k' (look st n g).st ∧
    (∀ o, (look st n g).obj = .ok o → freshLoad c file secs k' n g = .ok o) ∧
    (∀ o, freshLoad c file secs f n g = .ok o → (look st n g).obj = .ok o)

theorem Sees.le1 {f k k' : Nat} {look : Loaded → Nat → Nat → Fetch} (h : Sees c file secs f k k' look) {st : Loaded}
    (hi : LoadInv c file secs k st) : ∀ a b i, lookInt (look st) a b = .ok i → resolveIn c file secs k' {} a b = .ok i := by
  intro a b i hl
  obtain ⟨o, h1, h2⟩ := except_bind_ok hl
  rw [resolveIn_eq]
  have := (h.2 st hi a b).2.1 o h1
  unfold freshLoad at this
  rw [this, ok_bind]; exact h2

theorem Sees.le2 {f k k' : Nat} {look : Loaded → Nat → Nat → Fetch} (h : Sees c file secs f k k' look) {st : Loaded}
    (hi : LoadInv c file secs k st) : ∀ a b i, resolveIn c file secs f {} a b = .ok i → lookInt (look st) a b = .ok i := by
  intro a b i hl
  rw [resolveIn_eq] at hl
  obtain ⟨o, h1, h2⟩ := except_bind_ok hl
  unfold lookInt
  rw [(h.2 st hi a b).2.2 o h1, ok_bind]; exact h2

theorem LoadInv.set_value {k k' : Nat} {st : Loaded} (hi : LoadInv c file secs k st) (hle : k ≤ k') {n g : Nat} {o : SObj}
    (hv : freshLoad c file secs k' n g = .ok o) : LoadInv c file secs k' (st.set n g o) := by
  refine ⟨fun m h o' ho' => ?_, fun s hs m y i hy hyk => ?_⟩
  · rw [Loaded.get_set] at ho'
    by_cases he : (m, h) = (n, g)
    · rw [if_pos he] at ho'; injection ho' with ho'; subst ho'
      injection he with e1 e2; subst e1; subst e2; exact hv
    · rw [if_neg he] at ho'; exact fresh_mono hle (hi.values m h o' ho')
  · rw [Loaded.get_set]
    by_cases he : (m, 0) = (n, g)
    · rw [if_pos he]; injection he with e1 e2; subst e1; subst e2; exact hv
    · rw [if_neg he]
      exact fresh_mono hle (hi.streams s (st.streams_set _ _ _ _ hs) m y i hy hyk)

theorem lookNat_spec {f k k' : Nat} {look : Loaded → Nat → Nat → Fetch} (h : Sees c file secs f k k' look) {st : Loaded}
    (hi : LoadInv c file secs k st) (key : Bytes) (d : Dict) :
    LoadInv c file secs k' (lookNat look st key d).1 ∧
    (∀ v, (lookNat look st key d).2 = .ok v → natEntry ⟨[], true, resolveIn c file secs k' {}⟩ key d = .ok v) ∧
    (∀ v, natEntry ⟨[], true, resolveIn c file secs f {}⟩ key d = .ok v → (lookNat look st key d).2 = .ok v) := by
  unfold lookNat
  have e1 : Env.Le ⟨[], true, lookInt (look st)⟩ ⟨[], true, resolveIn c file secs k' {}⟩ := ⟨rfl, rfl, h.le1 hi⟩
  have e2 : Env.Le ⟨[], true, resolveIn c file secs f {}⟩ ⟨[], true, lookInt (look st)⟩ := ⟨rfl, rfl, h.le2 hi⟩
  refine ⟨?_, fun v hv => natEntry_le e1 hv, fun v hv => natEntry_le e2 hv⟩
  dsimp only
  split
  · exact (h.2 st hi _ _).1
  · exact hi.mono h.1

theorem unpack_le {r r' : Nat → Nat → Res Int} (h : ∀ n g i, r n g = .ok i → r' n g = .ok i) {d : Dict} {raw : Bytes} {first size : Nat}
    {l : List (Nat × Obj)} (hx : unpack c r d raw first size = .ok l) : unpack c r' d raw first size = .ok l := by
  unfold unpack at hx ⊢
  obtain ⟨body, h3, hx⟩ := except_bind_ok hx
  rw [h3, ok_bind]
  by_cases hb : body = []
  · rw [if_pos hb] at hx; cases hx
  · rw [if_neg hb] at hx ⊢
    unfold readObjStm at hx ⊢
    obtain ⟨hd, h4, hx⟩ := except_bind_ok hx
    dsimp only at h4 hx ⊢
    rw [h4, ok_bind]
    exact readObjStmObjects_le (e := ⟨body, true, r⟩) (e' := ⟨body, true, r'⟩) ⟨rfl, rfl, h⟩ _ _ _ hx

theorem objStmContent_unpack (r : Nat → Nat → Res Int) (d : Dict) (raw : Bytes) : objStmContent c r (.stream d raw) = (do
    let size ← natEntry ⟨[], true, r⟩ (b! "N") d
    let first ← natEntry ⟨[], true, r⟩ (b! "First") d
    unpack c r d raw first size) := rfl

theorem natEntry_mono {f f' : Nat} (hle : f ≤ f') {key : Bytes} {d : Dict} {v : Nat}
    (h : natEntry ⟨[], true, resolveIn c file secs f {}⟩ key d = .ok v) :
    natEntry ⟨[], true, resolveIn c file secs f' {}⟩ key d = .ok v := by
  have e : Env.Le ⟨[], true, resolveIn c file secs f {}⟩ ⟨[], true, resolveIn c file secs f' {}⟩ :=
    ⟨rfl, rfl, resolveIn_le (fun n g o h => fresh_mono hle h)⟩
  exact natEntry_le e h

/-- Unpacking an object stream that is listed properly. -/
theorem fillFrom_spec (hc : Consistent c file secs) {f k0 k1 k2 k3 : Nat} {look : Loaded → Nat → Nat → Fetch}
    (s1 : Sees c file secs f k0 k1 look) (s2 : Sees c file secs f k1 k2 look) (s3 : Sees c file secs f k2 k3 look) {st : Loaded}
    (hi : LoadInv c file secs k0 st) {n sn i : Nat} {x : XEntry} (hf : findRead secs n 0 = some x) (hk : x.kind = .compressed sn i)
    {d : Dict} {raw : Bytes} (hst : freshLoad c file secs k0 sn 0 = .ok (.stream d raw)) :
    (∀ st' er, fillFrom c secs look st sn d raw = (st', .error er) → LoadInv c file secs (k3 + 1) st' ∧
      ∀ l, objStmContent c (resolveIn c file secs f {}) (.stream d raw) ≠ .ok l) ∧
    (∀ st', fillFrom c secs look st sn d raw = (st', .ok ()) → LoadInv c file secs (k3 + 1) st' ∧ sn ∈ st'.streams) := by
  unfold fillFrom
  obtain ⟨a1, a2, a3⟩ := lookNat_spec s1 hi (b! "N") d
  cases hN : lookNat look st (b! "N") d with
  | mk st1 r1 =>
    rw [hN] at a1 a2 a3
    dsimp only at a1 a2 a3 ⊢
    have l12 := s2.1
    have l23 := s3.1
    cases r1 with
    | error er =>
      refine ⟨fun st' er' h => ?_, fun st' h => by injection h with _ h; cases h⟩
      injection h with h _; subst h
      refine ⟨a1.mono (by omega), fun l hl => ?_⟩
      rw [objStmContent_unpack] at hl
      obtain ⟨v, hv, _⟩ := except_bind_ok hl
      have := a3 v hv; cases this
    | ok size =>
      dsimp only
      obtain ⟨b1, b2, b3⟩ := lookNat_spec s2 a1 (b! "First") d
      cases hF : lookNat look st1 (b! "First") d with
      | mk st2 r2 =>
        rw [hF] at b1 b2 b3
        dsimp only at b1 b2 b3 ⊢
        cases r2 with
        | error er =>
          refine ⟨fun st' er' h => ?_, fun st' h => by injection h with _ h; cases h⟩
          injection h with h _; subst h
          refine ⟨b1.mono (by omega), fun l hl => ?_⟩
          rw [objStmContent_unpack] at hl
          obtain ⟨v, _, hl⟩ := except_bind_ok hl
          obtain ⟨w, hw, _⟩ := except_bind_ok hl
          have := b3 w hw; cases this
        | ok first =>
          dsimp only
          cases hu : unpack c (lookInt (look st2)) d raw first size with
          | error er =>
            refine ⟨fun st' er' h => ?_, fun st' h => by injection h with _ h; cases h⟩
            injection h with h _; subst h
            refine ⟨b1.mono (by omega), fun l hl => ?_⟩
            rw [objStmContent_unpack] at hl
            obtain ⟨v, hv, hl⟩ := except_bind_ok hl
            obtain ⟨w, hw, hl⟩ := except_bind_ok hl
            have e1 := a3 v hv; injection e1 with e1
            have e2 := b3 w hw; injection e2 with e2
            subst e1; subst e2
            rw [unpack_le (s3.le2 b1) hl] at hu; cases hu
          | ok l =>
            dsimp only
            have hcn : objStmContent c (resolveIn c file secs k3 {}) (.stream d raw) = .ok l := by
              rw [objStmContent_unpack, natEntry_mono (by omega) (a2 size rfl), ok_bind, natEntry_mono (by omega) (b2 first rfl), ok_bind]
              exact unpack_le (s3.le1 b1) hu
            have l01 := s1.1
            have hst3 : freshLoad c file secs k3 sn 0 = .ok (.stream d raw) := fresh_mono (by omega) hst
            have honly := hc.only n 0 x sn i hf hk k3 _ l hst3 hcn
            obtain ⟨st3, e1, e2, e3⟩ := storeAll_spec (secs := secs) l st2 (fun y hy => by
              obtain ⟨x', j, q1, q2⟩ := honly y hy
              exact ⟨x', q1, by simp [q2]⟩)
            rw [e1]
            refine ⟨fun st' er' h => (by injection h with _ h; cases h), fun st' h => ?_⟩
            injection h with h _; subst h
            have member : ∀ m y j, findRead secs m 0 = some y → y.kind = .compressed sn j →
                freshLoad c file secs (k3 + 1) m 0 = .ok (match listed l m with | some o => .direct o | none => .direct .null) :=
              fun m y j hy hyk => fresh_compressed hc hy hyk hst3 hcn
            refine ⟨⟨fun m h o ho => ?_, fun s hs m y j hy hyk => ?_⟩, by simp⟩
            · change st3.get m h = some o at ho
              rw [e2] at ho
              by_cases hh : h = 0
              · subst hh
                rw [if_pos rfl] at ho
                cases hli : listed l m with
                | none => rw [hli] at ho; exact fresh_mono (by omega) (b1.values m 0 o ho)
                | some o' =>
                  rw [hli] at ho; injection ho with ho; subst ho
                  obtain ⟨z, hz, hzm⟩ := listed_mem hli
                  obtain ⟨y, j, q1, q2⟩ := honly z hz
                  rw [hzm] at q1
                  rw [member m y j q1 q2, hli]
              · rw [if_neg hh] at ho
                exact fresh_mono (by omega) (b1.values m h o ho)
            · change freshLoad c file secs (k3 + 1) m 0 = .ok ((st3.get m 0).getD (.direct .null))
              rw [e2, if_pos rfl]
              by_cases hss : s = sn
              · subst hss
                rw [member m y j hy hyk]
                cases hli : listed l m with
                | some o => rfl
                | none =>
                  cases hgm : st2.get m 0 with
                  | none => rfl
                  | some o =>
                    have v1 := member m y j hy hyk
                    rw [hli] at v1
                    have := fresh_unique v1 (b1.values m 0 o hgm)
                    subst this; rfl
              · have hs' : s ∈ st2.streams := by
                  rcases List.mem_cons.mp hs with q | q
                  · exact absurd q hss
                  · exact e3 s q
                have hli : listed l m = none := by
                  cases hli : listed l m with
                  | none => rfl
                  | some o =>
                    obtain ⟨z, hz, hzm⟩ := listed_mem hli
                    obtain ⟨y', j', q1, q2⟩ := honly z hz
                    rw [hzm, hy] at q1; injection q1 with q1; subst q1
                    rw [hyk] at q2; injection q2 with q2 _; exact absurd q2 hss
                rw [hli]
                exact fresh_mono (by omega) (b1.streams s hs' m y j hy hyk)

/-- Requests with the position of the reader find what requests without it find. -/
theorem fetch_sees (hc : Consistent c file secs) (hp : PlainLengths c file secs) : ∀ f k, ∃ k', Sees c file secs f k k' (fetch c file secs f) := by
  intro f
  induction f with
  | zero =>
    intro k
    refine ⟨k, Nat.le_refl _, fun st hi n g => ⟨by rw [fetch]; exact hi, fun o h => (by rw [fetch] at h; cases h), fun o h => ?_⟩⟩
    unfold freshLoad at h; rw [loadStep] at h; cases h
  | succ f ih =>
    intro k
    obtain ⟨k1, s0⟩ := ih k
    obtain ⟨k2, s1⟩ := ih k1
    obtain ⟨k3, s2⟩ := ih k2
    obtain ⟨k4, s3⟩ := ih k3
    have l0 := s0.1
    have l1 := s1.1
    have l2 := s2.1
    have l3 := s3.1
    refine ⟨k4 + 1, by omega, fun st hi n g => ?_⟩
    cases hf : findRead secs n g with
    | none =>
      rw [fetch_none hf]
      have hn : ∀ q, freshLoad c file secs (q + 1) n g = .ok (.direct .null) := fun q => by unfold freshLoad; rw [step_none hf]
      exact ⟨hi.mono (by omega), fun o h => by rw [← h]; exact hn _, fun o h => by rw [← h]; exact (hn _).symm⟩
    | some x =>
      have cached : ∀ o, (∀ k, x.kind ≠ .free k) → st.get n g = some o →
          LoadInv c file secs (k4 + 1) (fetch c file secs (f + 1) st n g).st ∧
          (∀ o, (fetch c file secs (f + 1) st n g).obj = .ok o → freshLoad c file secs (k4 + 1) n g = .ok o) ∧
          (∀ o, freshLoad c file secs (f + 1) n g = .ok o → (fetch c file secs (f + 1) st n g).obj = .ok o) := by
        intro o hk ho
        rw [fetch_cached hf hk f ho]
        have hv := hi.values n g o ho
        refine ⟨hi.mono (by omega), fun o' h => ?_, fun o' h => ?_⟩
        · injection h with h; subst h; exact fresh_mono (by omega) hv
        · rw [fresh_unique h hv]
      cases hk : x.kind with
      | free q =>
        rw [fetch_free hf hk]
        have hn : ∀ q, freshLoad c file secs (q + 1) n g = .ok (.direct .null) := fun q => by
          unfold freshLoad; rw [step_free hf hk]
        exact ⟨hi.mono (by omega), fun o h => by rw [← h]; exact hn _, fun o h => by rw [← h]; exact (hn _).symm⟩
      | used off =>
        cases hg : st.get n g with
        | some o => exact cached o (by simp [hk]) hg
        | none =>
          have hfr : ∀ q o, freshLoad c file secs (q + 1) n g = .ok o ↔
              loadAt (fileEnv file (resolveIn c file secs q {})) n g off = .ok o := fun q o => by
            unfold freshLoad; rw [step_used hf hk q (by rfl)]
            cases loadAt (fileEnv file (resolveIn c file secs q {})) n g off <;> exact Iff.rfl
          obtain ⟨st0, r, h1, h2, h3⟩ := fetchUsed_spec hp hf hk f st k1 (s0.le1 hi)
          rw [fetch_used hf hk f hg, h2]
          have hi0 : LoadInv c file secs k1 st0 := by
            rcases h1 with rfl | ⟨a, b, rfl⟩
            · exact hi.mono l0
            · exact (s0.2 st hi a b).1
          have sound : ∀ o, r = .ok o → freshLoad c file secs (k4 + 1) n g = .ok o := fun o ho =>
            fresh_mono (by omega) ((hfr k1 o).mpr (loadAt_le (fileEnv_le (s0.le1 hi)) ((h3 o).mp ho)))
          refine ⟨?_, fun o ho => ?_, fun o ho => ?_⟩
          · cases r with
            | error er => exact hi0.mono (by omega)
            | ok o => exact hi0.set_value (by omega) (sound o rfl)
          · rw [keep_obj] at ho; exact sound o ho
          · rw [keep_obj]
            exact (h3 o).mpr (loadAt_le (fileEnv_le (s0.le2 hi)) ((hfr f o).mp ho))
      | compressed sn i =>
        obtain ⟨hg0, y, off, hy, hyk⟩ := hc.stream n g x sn i hf hk
        subst hg0
        cases hg : st.get n 0 with
        | some o => exact cached o (by simp [hk]) hg
        | none =>
          obtain ⟨i1, i2, i3⟩ := s0.2 st hi sn 0
          rw [fetch_compressed hf hk f hg]
          unfold fetchCompressed
          dsimp only
          have first : ∀ o, freshLoad c file secs (f + 1) n 0 = .ok o → ∃ stm l, freshLoad c file secs f sn 0 = .ok stm ∧
              objStmContent c (resolveIn c file secs f {}) stm = .ok l := by
            intro o ho
            unfold freshLoad at ho
            rw [step_compressed hf hk f (by rfl)] at ho
            cases hs0 : loadStep c file secs f {} sn 0 with
            | mk st0 r0 =>
              rw [hs0] at ho
              cases r0 with
              | error e => cases ho
              | ok stm =>
                dsimp only at ho
                have hst0 : st0.streams = [] := by
                  cases f with
                  | zero => rw [loadStep] at hs0; injection hs0 with _ hs0; cases hs0
                  | succ f =>
                    rw [step_used hy hyk f (by rfl)] at hs0
                    cases hl : loadAt (fileEnv file (resolveIn c file secs f {})) sn 0 off with
                    | error e => rw [hl] at hs0; injection hs0 with _ hs0; cases hs0
                    | ok o => rw [hl] at hs0; injection hs0 with hs0 _; subst hs0; unfold Loaded.set; simp
                rw [if_neg (by rw [hst0]; simp)] at ho
                cases hcn : objStmContent c (resolveIn c file secs f {}) stm with
                | error e => rw [hcn] at ho; cases ho
                | ok l => exact ⟨stm, l, by unfold freshLoad; rw [hs0], hcn⟩
          cases hso : (fetch c file secs f st sn 0).obj with
          | error er =>
            refine ⟨i1.mono (by omega), fun o h => (by cases h), fun o h => ?_⟩
            obtain ⟨stm, l, h1, _⟩ := first o h
            rw [i3 stm h1] at hso; cases hso
          | ok o =>
            dsimp only
            have hfs := i2 o hso
            by_cases hm : sn ∈ (fetch c file secs f st sn 0).st.streams
            · rw [if_pos hm]
              have hv := i1.streams sn hm n x i hf hk
              refine ⟨i1.mono (by omega), fun o h => ?_, fun o h => ?_⟩
              · rw [← h]; exact fresh_mono (by omega) hv
              · rw [fresh_unique h hv]
            · rw [if_neg hm]
              cases o with
              | direct o =>
                refine ⟨i1.mono (by omega), fun o h => (by cases h), fun o' h => ?_⟩
                obtain ⟨stm, l, h1, h2⟩ := first o' h
                have := i3 stm h1; rw [hso] at this; injection this with this; subst this
                cases h2
              | stream d raw =>
                dsimp only
                obtain ⟨q1, q2⟩ := fillFrom_spec hc s1 s2 s3 i1 hf hk hfs
                cases hfill : fillFrom c secs (fetch c file secs f) (fetch c file secs f st sn 0).st sn d raw with
                | mk st' r =>
                  cases r with
                  | error er =>
                    obtain ⟨p1, p2⟩ := q1 st' er hfill
                    refine ⟨p1, fun o h => (by cases h), fun o' h => ?_⟩
                    obtain ⟨stm, l, h1, h2⟩ := first o' h
                    have := i3 stm h1; rw [hso] at this; injection this with this; subst this
                    exact absurd h2 (p2 l)
                  | ok u =>
                    obtain ⟨p1, p2⟩ := q2 st' hfill
                    dsimp only
                    have hv := p1.streams sn p2 n x i hf hk
                    refine ⟨p1, fun o h => ?_, fun o h => ?_⟩
                    · rw [← h]; exact hv
                    · rw [fresh_unique h hv]

theorem fetchAll_inv (hc : Consistent c file secs) (hp : PlainLengths c file secs) (f : Nat) (hist : List (Nat × Nat)) :
    ∀ (k : Nat) (st : Loaded), LoadInv c file secs k st → ∃ k', LoadInv c file secs k' (fetchAll c file secs f st hist) := by
  induction hist with
  | nil => intro k st h; exact ⟨k, h⟩
  | cons a l ih =>
    intro k st h
    obtain ⟨n, g⟩ := a
    obtain ⟨k', s⟩ := fetch_sees hc hp f k
    exact ih k' _ (s.2 st h n g).1

end VPdf
