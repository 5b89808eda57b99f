import Verif.Lemmas.LoadEnds
import Verif.Props.LoadOrder
/-
  C93: every request for an object returns.
-/
namespace VPdf
open Spec

variable {c : Codec} {file : Bytes} {secs : List ReadSection}

/-- **C93** (partial): in a file in which no object is read with the help of itself and no length is negative, a request for any
object, after any requests, ends: `rank n g` is the depth of lookups that is enough.  Missing: other files - there it fails
(`C93_length_cycle_counterexample`, `C93_stream_cycle_counterexample`). -/
theorem C93_ends_partial (hc : ∀ d s, c.decode d s ≠ .error .timeout) {need : Nat → Nat → Nat → Nat → Prop} {rank : Nat → Nat → Nat}
    (hg : Grounded c file secs need rank) (st : Loaded) (hst : Requested c file secs st) (n g f : Nat) (hf : rank n g < f) :
    (fetch c file secs f st n g).obj ≠ .error .timeout :=
  fetch_ends hc hg f st n g hst hf

/-- **C93** (partial), sequences: the state any sequence of requests leaves behind is one from which each request ends. -/
theorem C93_sequence_partial (hc : ∀ d s, c.decode d s ≠ .error .timeout) {need : Nat → Nat → Nat → Nat → Prop} {rank : Nat → Nat → Nat}
    (hg : Grounded c file secs need rank) (f' : Nat) (hist : List (Nat × Nat)) (n g f : Nat) (hf : rank n g < f) :
    (fetch c file secs f (fetchAll c file secs f' {} hist) n g).obj ≠ .error .timeout := by
  have : ∀ (hist : List (Nat × Nat)) st, Requested c file secs st → Requested c file secs (fetchAll c file secs f' st hist) := by
    intro hist
    induction hist with
    | nil => intro st h; exact h
    | cons x l ih => intro st h; exact ih _ (.next f' _ _ h)
  exact fetch_ends hc hg f _ n g (this hist {} .start) hf

/-- **C93** fails of streams whose lengths lead to each other: `P` holds of streams, each of which has a reference to an object
of `P` as its Length.  A request for one of them does not end, whatever depth of lookups is allowed. -/
theorem C93_length_cycle_counterexample (P : Nat → Nat → Prop)
    (hP : ∀ n g, P n g → ∃ x off, findRead secs n g = some x ∧ x.kind = .used off ∧ ∀ r, ∃ tn tg d data rest k m,
      streamHead (fileEnv file r) ((fileEnv file r).seek off) = .ok (tn, tg, d, data, rest) ∧
      valueAt (b! "Length") d = some (.ref k m) ∧ P k m) (st : Loaded) (hst : ∀ n g, P n g → st.get n g = none) (n g : Nat)
    (h : P n g) : ∀ f, (fetch c file secs f st n g).obj = .error .timeout := by
  intro f
  induction f generalizing n g with
  | zero => rfl
  | succ f ih =>
    obtain ⟨x, off, h1, h2, h3⟩ := hP n g h
    rw [fetch_used h1 h2 f (hst n g h)]
    obtain ⟨tn, tg, d, data, rest, k, m, h4, h5, h6⟩ := h3 (lookInt (fetch c file secs f st))
    have hr : lengthRef d = some (k, m) := by unfold lengthRef; rw [← valueAt_eq, h5]
    unfold fetchUsed
    simp only [h4, hr]
    unfold fetchStream
    rw [ih k m h6]
    rfl

/-- **C93** fails of an object stream that has the number of its objects (N) inside: once the stream itself is loaded, a request
for that object does not end, whatever depth of lookups is allowed. -/
theorem C93_stream_cycle_counterexample (st : Loaded) (n sn i : Nat) (x y : XEntry) (d : Dict) (raw : Bytes) (off : Int)
    (hf : findRead secs n 0 = some x) (hk : x.kind = .compressed sn i) (hy : findRead secs sn 0 = some y) (hyk : y.kind = .used off)
    (hs : st.get sn 0 = some (.stream d raw)) (hn : valueAt (b! "N") d = some (.ref n 0)) (hnew : st.get n 0 = none)
    (hu : sn ∉ st.streams) : ∀ f, (fetch c file secs f st n 0).obj = .error .timeout := by
  intro f
  induction f with
  | zero => rfl
  | succ f ih =>
    rw [fetch, hf]
    simp only [hk, hnew]
    cases f with
    | zero => rfl
    | succ f =>
      have h1 : fetch c file secs (f + 1) st sn 0 = ⟨st, none, .ok (.stream d raw)⟩ := by
        rw [fetch, hy]; simp only [hyk, hs]
      unfold fetchCompressed
      simp only [h1, if_neg hu]
      have h2 : (lookNat (fetch c file secs (f + 1)) st (b! "N") d).2 = .error .timeout := by
        unfold lookNat natEntry
        rw [← valueAt_eq, hn]
        show ((fetch c file secs (f + 1) st n 0).obj >>= toInt) >>= _ = _
        rw [ih]; rfl
      unfold fillFrom
      generalize lookNat (fetch c file secs (f + 1)) st (b! "N") d = q at h2
      obtain ⟨st', q⟩ := q
      dsimp only at h2
      subst h2
      rfl

/-! ### files that are grounded -/

/-- A resolver that finds nothing. -/
def noResolve : Nat → Nat → Res Int := fun _ _ => .error .conversion

/-- A test of `Grounded`. -/
def checkGrounded (c : Codec) (file : Bytes) (secs : List ReadSection) (f : Nat) (rank : Nat → Nat → Nat) : Bool :=
  (file.drop 7).all (· != 45) &&
  secs.all fun s => s.1.all fun x =>
    match x.kind with
    | .used off =>
      let e := fileEnv file noResolve
      match streamHead e (e.seek off) with
      | .ok (_, _, d, _, _) =>
        match lengthRef d with
        | some (k, m) =>
          decide (rank k m < rank x.num x.gen) &&
          (match freshLoad c file secs f k m with
            | .ok (.direct (.int l)) => decide (0 ≤ l)
            | _ => false)
        | none => (match loadAt e x.num x.gen off with
            | .ok _ => true
            | .error _ => false)
      | .error _ =>
        (match parseIndirect e (e.seek off) with
          | .ok (_, _, .direct _, _) => true
          | _ => false)
    | .compressed sn _ =>
      decide (rank sn 0 < rank x.num x.gen) &&
      (match freshLoad c file secs f sn 0 with
        | .ok (.stream d raw) =>
          (match c.decode d raw with
            | .ok body => body.all (· != 45)
            | .error _ => true) &&
          (match natEntry ⟨[], true, noResolve⟩ (b! "N") d, natEntry ⟨[], true, noResolve⟩ (b! "First") d with
            | .ok size, .ok first => (match unpack c noResolve d raw first size with
              | .ok _ => true
              | .error _ => false)
            | _, _ => false)
        | _ => false)
    | .free _ => true

theorem findRead_num (l : List ReadSection) {n g : Nat} {x : XEntry} (h : findRead l n g = some x) : x.num = n := by
  induction l with
  | nil => cases h
  | cons s l ih =>
    rw [findRead] at h
    cases hf : EntrySet.find n s.1 with
    | none => rw [hf] at h; exact ih h
    | some e =>
      rw [hf] at h
      dsimp only at h
      by_cases hg : e.gen = g
      · rw [if_pos hg] at h; injection h with h; subst h
        have := List.find?_some hf
        simpa using this
      · rw [if_neg hg] at h; exact ih h

/-- The states requests leave behind have the values of the file just opened. -/
theorem requested_inv (hc : Consistent c file secs) (hp : PlainLengths c file secs) {st : Loaded} (h : Requested c file secs st) :
    ∃ k, LoadInv c file secs k st := by
  induction h with
  | start => exact ⟨0, loadInv_empty⟩
  | next f n g h ih =>
    obtain ⟨k, hk⟩ := ih
    obtain ⟨k', s⟩ := fetch_sees hc hp f k
    exact ⟨k', (s.2 _ hk n g).1⟩

theorem gives_fresh (hc : Consistent c file secs) (hp : PlainLengths c file secs) {n g : Nat} {o : SObj} (h : Gives c file secs n g o) :
    ∃ f, freshLoad c file secs f n g = .ok o := by
  obtain ⟨f, st, h1, h2⟩ := h
  obtain ⟨k, hk⟩ := requested_inv hc hp h1
  obtain ⟨k', s⟩ := fetch_sees hc hp f k
  exact ⟨k', (s.2 _ hk n g).2.1 o h2⟩

/-- The objects an object is read with the help of, in a file that passes the test. -/
def readWith (file : Bytes) (secs : List ReadSection) (n g k m : Nat) : Prop :=
  (∃ x off tn tg d data rest, findRead secs n g = some x ∧ x.kind = .used off ∧
    streamHead (fileEnv file noResolve) ((fileEnv file noResolve).seek off) = .ok (tn, tg, d, data, rest) ∧
    valueAt (b! "Length") d = some (.ref k m)) ∨
  ∃ x sn i, findRead secs n g = some x ∧ x.kind = .compressed sn i ∧ k = sn ∧ m = 0

theorem noResolve_le (r : Nat → Nat → Res Int) : Env.Le (fileEnv file noResolve) (fileEnv file r) := ⟨rfl, rfl, fun n g i q => by cases q⟩

theorem grounded_of_check (hc : Consistent c file secs) (hp : PlainLengths c file secs) (f : Nat) (rank : Nat → Nat → Nat)
    (h : checkGrounded c file secs f rank = true) : Grounded c file secs (readWith file secs) rank := by
  unfold checkGrounded at h
  rw [Bool.and_eq_true] at h
  obtain ⟨htext, h⟩ := h
  have entry : ∀ n g x, findRead secs n g = some x → x.num = n ∧ x.gen = g ∧ ∃ s ∈ secs, x ∈ s.1 := by
    intro n g x hf
    obtain ⟨h1, h2⟩ := findRead_mem _ hf
    exact ⟨findRead_num _ hf, h2, h1⟩
  have lengths : ∀ n g x off tn tg d data rest k m, findRead secs n g = some x → x.kind = .used off →
      streamHead (fileEnv file noResolve) ((fileEnv file noResolve).seek off) = .ok (tn, tg, d, data, rest) →
      valueAt (b! "Length") d = some (.ref k m) → rank k m < rank n g ∧ ∃ l, 0 ≤ l ∧ freshLoad c file secs f k m = .ok (.direct (.int l)) := by
    intro n g x off tn tg d data rest k m hf hk hs hl
    obtain ⟨e1, e2, s, hs', hx⟩ := entry n g x hf
    have := List.all_eq_true.mp (List.all_eq_true.mp h s hs') x hx
    have hr : lengthRef d = some (k, m) := by unfold lengthRef; rw [← valueAt_eq, hl]
    simp only [hk, hs, hr, Bool.and_eq_true, decide_eq_true_eq, e1, e2] at this
    refine ⟨this.1, ?_⟩
    have := this.2
    split at this
    · rename_i l hl; exact ⟨l, by simpa using this, hl⟩
    · cases this
  have streams : ∀ n g x sn i, findRead secs n g = some x → x.kind = .compressed sn i → rank sn 0 < rank n g ∧ ∃ d raw,
      freshLoad c file secs f sn 0 = .ok (.stream d raw) ∧ (∀ body, c.decode d raw = .ok body → ∀ b ∈ body, b ≠ 45) ∧
      ∃ size first l, natEntry ⟨[], true, noResolve⟩ (b! "N") d = .ok size ∧ natEntry ⟨[], true, noResolve⟩ (b! "First") d = .ok first ∧
        unpack c noResolve d raw first size = .ok l := by
    intro n g x sn i hf hk
    obtain ⟨e1, e2, s, hs', hx⟩ := entry n g x hf
    have := List.all_eq_true.mp (List.all_eq_true.mp h s hs') x hx
    simp only [hk, Bool.and_eq_true, decide_eq_true_eq, e1, e2] at this
    refine ⟨this.1, ?_⟩
    have := this.2
    split at this
    · rename_i d raw hl
      rw [Bool.and_eq_true] at this
      obtain ⟨t1, t2⟩ := this
      refine ⟨d, raw, hl, fun body hb => ?_, ?_⟩
      · rw [hb] at t1
        exact fun b hb' => by simpa using List.all_eq_true.mp t1 b hb'
      · split at t2
        · rename_i size first h1 h2
          cases hu : unpack c noResolve d raw first size with
          | error er => rw [hu] at t2; cases t2
          | ok l => exact ⟨size, first, l, h1, h2, hu⟩
        · cases t2
    · cases this
  have fresh : ∀ {n g o}, Gives c file secs n g o → ∀ {o'}, freshLoad c file secs f n g = .ok o' → o = o' := by
    intro n g o hgv o' ho
    obtain ⟨f', hf'⟩ := gives_fresh hc hp hgv
    exact fresh_unique hf' ho
  refine ⟨?_, ?_, ?_, ?_, ?_, ?_, ?_, ?_, ?_⟩
  · rintro n g k m (⟨x, off, tn, tg, d, data, rest, h1, h2, h3, h4⟩ | ⟨x, sn, i, h1, h2, rfl, rfl⟩)
    · exact (lengths _ _ _ _ _ _ _ _ _ _ _ h1 h2 h3 h4).1
    · exact (streams _ _ _ _ _ h1 h2).1
  · rintro n g k m (⟨x, off, tn, tg, d, data, rest, h1, h2, h3, h4⟩ | ⟨x, sn, i, h1, h2, rfl, rfl⟩) j hj
    · obtain ⟨_, l, h5, h6⟩ := lengths _ _ _ _ _ _ _ _ _ _ _ h1 h2 h3 h4
      have := fresh hj h6
      injection this with this; injection this with this; subst this; exact h5
    · obtain ⟨_, d, raw, h3, _⟩ := streams _ _ _ _ _ h1 h2
      have := fresh hj h3; cases this
  · rintro n g k m (⟨x, off, tn, tg, d, data, rest, h1, h2, h3, h4⟩ | ⟨x, sn, i, h1, h2, rfl, rfl⟩) j p hj
    · obtain ⟨_, l, h5, h6⟩ := lengths _ _ _ _ _ _ _ _ _ _ _ h1 h2 h3 h4
      have := fresh hj h6
      injection this with this; cases this
    · obtain ⟨_, d, raw, h3, _⟩ := streams _ _ _ _ _ h1 h2
      have := fresh hj h3; cases this
  · exact noNegative_of_drop fun b hb => by simpa using List.all_eq_true.mp htext b hb
  · intro n g x off hf hk r r' _ hno
    obtain ⟨e1, e2, s, hs', hx⟩ := entry n g x hf
    have := List.all_eq_true.mp (List.all_eq_true.mp h s hs') x hx
    simp only [hk, e1, e2] at this
    have same : ∀ o, loadAt (fileEnv file noResolve) n g off = .ok o →
        loadAt (fileEnv file r) n g off = loadAt (fileEnv file r') n g off := by
      intro o ho
      rw [loadAt_le (noResolve_le r) ho, loadAt_le (noResolve_le r') ho]
    cases hs : streamHead (fileEnv file noResolve) ((fileEnv file noResolve).seek off) with
    | error er =>
      rw [hs] at this
      dsimp only at this
      split at this
      · rename_i ho
        have p1 := parseIndirect_le (noResolve_le r) ho
        have p2 := parseIndirect_le (noResolve_le r') ho
        unfold loadAt
        rw [show (fileEnv file r).seek off = (fileEnv file noResolve).seek off from rfl,
          show (fileEnv file r').seek off = (fileEnv file noResolve).seek off from rfl, p1, p2]
        rfl
      · cases this
    | ok y =>
      obtain ⟨tn, tg, d, data, rest⟩ := y
      rw [hs] at this
      dsimp only at this
      cases hr : lengthRef d with
      | some km =>
        exfalso
        obtain ⟨k, m⟩ := km
        refine hno tn tg d data rest k m (streamHead_le (noResolve_le r) hs) ?_
        unfold lengthRef at hr
        rw [valueAt_eq]
        split at hr
        · rename_i k' m' hm; injection hr with hr; injection hr with a1 a2; rw [hm, a1, a2]
        · cases hr
      | none =>
        rw [hr] at this
        dsimp only at this
        split at this
        · rename_i o ho; exact same _ ho
        · cases this
  · intro n g x off hf hk r tn tg d data rest k m hs hl
    cases h0 : streamHead (fileEnv file noResolve) ((fileEnv file noResolve).seek off) with
    | ok y =>
      have h1 := streamHead_le (noResolve_le r) h0
      rw [show (fileEnv file noResolve).seek off = (fileEnv file r).seek off from rfl, hs] at h1
      injection h1 with h1; subst h1
      exact .inl ⟨x, off, tn, tg, d, data, rest, hf, hk, h0, hl⟩
    | error er =>
      exfalso
      obtain ⟨e1, e2, s, hs', hx⟩ := entry n g x hf
      have := List.all_eq_true.mp (List.all_eq_true.mp h s hs') x hx
      simp only [hk, h0] at this
      split at this
      · rename_i ho
        have h3 := head_parsed (e := fileEnv file r) rfl hs hl (parseIndirect_le (noResolve_le r) ho)
        cases h3
      · cases this
  · intro n g x sn i hf hk
    exact .inr ⟨x, sn, i, hf, hk, rfl, rfl⟩
  · intro n g x sn i hf hk d raw hgv k m hkm
    exfalso
    obtain ⟨_, d', raw', h3, _, size, first, l, h4, h5, _⟩ := streams n g x sn i hf hk
    have := fresh hgv h3
    injection this with a1 a2; subst a1
    rcases hkm with hkm | hkm
    · unfold natEntry at h4
      rw [← valueAt_eq, hkm] at h4
      cases h4
    · unfold natEntry at h5
      rw [← valueAt_eq, hkm] at h5
      cases h5
  · intro n g x sn i hf hk d raw hgv
    obtain ⟨_, d', raw', h3, h6, size, first, l, h4, h5, h7⟩ := streams n g x sn i hf hk
    have := fresh hgv h3
    injection this with a1 a2; subst a1; subst a2
    refine ⟨fun body hb => noNegative_of_drop fun b hb' => h6 body hb b (List.mem_of_mem_drop hb'), ?_⟩
    intro r1 r2 first' size' g1 g2 r r' _
    have le : ∀ r, Env.Le ⟨[], true, noResolve⟩ ⟨[], true, r⟩ := fun r => ⟨rfl, rfl, fun n g i q => by cases q⟩
    have b1 := natEntry_le (le r1) h4
    have b2 := natEntry_le (le r2) h5
    rw [g1] at b1; rw [g2] at b2
    injection b1 with b1; injection b2 with b2
    subst b1; subst b2
    rw [unpack_le (fun n g i q => by cases q) h7, unpack_le (fun n g i q => by cases q) h7]

/-- Ranks of the objects of the sample: lengths below streams, object streams below their objects. -/
def sampleRank (n _ : Nat) : Nat := if n = 1 ∨ n = 2 ∨ n = 9 then 1 else 0

/-- A file with an object stream and a stream with a reference as its Length meets the hypotheses. -/
example : ∃ file v secs, saveFile plainCodec .v17 [streamRev, compressedRev] = .ok file ∧ openFile plainCodec file = .ok (v, secs) ∧
    Grounded plainCodec file secs (readWith file secs) sampleRank := by
  have : (match saveFile plainCodec .v17 [streamRev, compressedRev] with
      | .error _ => false
      | .ok file => match openFile plainCodec file with
        | .error _ => false
        | .ok (_, secs) => checkConsistent plainCodec file secs 5 && checkLengths plainCodec file secs 5 &&
          checkGrounded plainCodec file secs 5 sampleRank) = true := by decide +kernel
  cases hs : saveFile plainCodec .v17 [streamRev, compressedRev] with
  | error e => rw [hs] at this; cases this
  | ok file =>
    rw [hs] at this
    dsimp only at this
    cases ho : openFile plainCodec file with
    | error e => rw [ho] at this; cases this
    | ok r =>
      rw [ho, Bool.and_eq_true, Bool.and_eq_true] at this
      exact ⟨file, r.1, r.2, rfl, ho, grounded_of_check (consistent_of_check 5 this.1.1) (plain_of_check 5 this.1.2) 5 _ this.2⟩

/-- The stream 5 with itself as its Length. -/
def ownLengthFile : Bytes := b! "%PDF-1.7\n5 0 obj\n<</Length 5 0 R>>\nstream\nabc\nendstream\nendobj\n"

def ownLengthSecs : List ReadSection := [([⟨5, 0, .used 9⟩], [])]

/-- A stream with itself as its Length: the request for it never ends. -/
example : ∀ f, (fetch plainCodec ownLengthFile ownLengthSecs f {} 5 0).obj = .error .timeout := by
  refine C93_length_cycle_counterexample (fun n g => n = 5 ∧ g = 0) ?_ {} (fun _ _ _ => rfl) 5 0 ⟨rfl, rfl⟩
  rintro n g ⟨rfl, rfl⟩
  refine ⟨⟨5, 0, .used 9⟩, 9, rfl, rfl, fun r => ?_⟩
  have h : (match streamHead (fileEnv ownLengthFile noResolve) ((fileEnv ownLengthFile noResolve).seek 9) with
      | .error _ => false
      | .ok (_, _, d, _, _) => match valueAt (b! "Length") d with
        | some (.ref k m) => k == 5 && m == 0
        | _ => false) = true := by decide +kernel
  cases hs : streamHead (fileEnv ownLengthFile noResolve) ((fileEnv ownLengthFile noResolve).seek 9) with
  | error er => rw [hs] at h; cases h
  | ok y =>
    obtain ⟨tn, tg, d, data, rest⟩ := y
    rw [hs] at h
    dsimp only at h
    split at h
    · rename_i k m hv
      simp at h
      exact ⟨tn, tg, d, data, rest, k, m, streamHead_le (noResolve_le r) hs, hv, h.1, h.2⟩
    · cases h

/-- The object stream 5, the number of whose objects is its object 1. -/
def ownCountFile : Bytes := b! "%PDF-1.7\n5 0 obj\n<</N 1 0 R/First 4/Length 5>>\nstream\n1 0 1\nendstream\nendobj\n"

def ownCountSecs : List ReadSection := [([⟨1, 0, .compressed 5 0⟩, ⟨5, 0, .used 9⟩], [])]

/-- The object stream is loaded, then its object 1 is asked for. -/
example : ∀ f, (fetch plainCodec ownCountFile ownCountSecs f (fetch plainCodec ownCountFile ownCountSecs 1 {} 5 0).st 1 0).obj =
    .error .timeout := by
  have h : (match (fetch plainCodec ownCountFile ownCountSecs 1 {} 5 0).st with
      | ⟨[((5, 0), .stream d _)], []⟩ => (match valueAt (b! "N") d with
        | some (.ref k m) => k == 1 && m == 0
        | _ => false)
      | _ => false) = true := by decide +kernel
  generalize (fetch plainCodec ownCountFile ownCountSecs 1 {} 5 0).st = st at h
  split at h
  · rename_i d raw
    split at h
    · rename_i k m hv
      simp at h
      obtain ⟨rfl, rfl⟩ := h
      exact C93_stream_cycle_counterexample _ 1 5 0 _ _ d raw 9 rfl rfl rfl rfl rfl hv rfl (by simp)
    · cases h
  · cases h

end VPdf
