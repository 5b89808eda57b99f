import Verif.Lemmas.Loading
import Verif.Props.ObjectStream
/-
  C63: the value of an object does not depend on which objects were loaded before.
-/
namespace VPdf
open Spec

variable {c : Codec} {file : Bytes} {secs : List ReadSection}

/-- **C63** (partial): in a file whose object streams list only objects that the newest entries place in them, and in which
lengths given by reference are right and not in object streams, an object that can be loaded from the file just opened has the
same value after any objects have been loaded in any order (with enough room for nested lookups).  Missing: files in which an
object of an object stream was replaced in a newer section, and streams whose length is in an object stream - there it fails
(`C63_stale_object_counterexample`, `C63_length_counterexample`). -/
theorem C63_load_order_partial (hc : Consistent c file secs) (hp : PlainLengths c file secs) (f f' : Nat) (hist : List (Nat × Nat))
    (n g : Nat) (o : SObj) (h : (fetch c file secs f {} n g).obj = .ok o) :
    ∃ F, ∀ f'' ≥ F, (fetch c file secs f'' (fetchAll c file secs f' {} hist) n g).obj = .ok o := by
  obtain ⟨k, hk⟩ := fetchAll_inv hc hp f' hist 0 {} loadInv_empty
  obtain ⟨k', s⟩ := fetch_sees hc hp f 0
  have hv := (s.2 {} loadInv_empty n g).2.1 o h
  refine ⟨k', fun f'' hf => ?_⟩
  obtain ⟨_, s'⟩ := fetch_sees hc hp f'' k
  exact (s'.2 _ hk n g).2.2 o (fresh_mono hf hv)

/-- **C63** (partial), the other direction: whatever is loaded after any history is the value the object has in the file
just opened. -/
theorem C63_no_other_value_partial (hc : Consistent c file secs) (hp : PlainLengths c file secs) (f f' : Nat)
    (hist : List (Nat × Nat)) (n g : Nat) (o : SObj) (h : (fetch c file secs f (fetchAll c file secs f' {} hist) n g).obj = .ok o) :
    ∃ F, ∀ f'' ≥ F, (fetch c file secs f'' {} n g).obj = .ok o := by
  obtain ⟨k, hk⟩ := fetchAll_inv hc hp f' hist 0 {} loadInv_empty
  obtain ⟨k', s⟩ := fetch_sees hc hp f k
  have hv := (s.2 _ hk n g).2.1 o h
  refine ⟨k', fun f'' hf => ?_⟩
  obtain ⟨_, s'⟩ := fetch_sees hc hp f'' 0
  exact (s'.2 _ loadInv_empty n g).2.2 o (fresh_mono hf hv)

/-- **C63**, for any file and whatever was loaded before: the data of a stream with a reference as its Length begin behind the
line with the keyword `stream`, wherever the reader has been while the length was looked up. -/
theorem C63_data_position (f : Nat) (st : Loaded) (n g : Nat) (x : XEntry) (off : Int) (hf : findRead secs n g = some x)
    (hk : x.kind = .used off) (hn : st.get n g = none) (tn tg : Token) (d : Dict) (data : Nat) (r : Bytes) (k m : Nat)
    (hs : streamHead (fileEnv file (lookInt (fetch c file secs f st))) ((fileEnv file (lookInt (fetch c file secs f st))).seek off) =
      .ok (tn, tg, d, data, r)) (hl : valueAt (b! "Length") d = some (.ref k m)) (o : SObj)
    (h : (fetch c file secs (f + 1) st n g).obj = .ok o) : ∃ body, o = .stream d body ∧ body <+: file.drop data := by
  have hr : lengthRef d = some (k, m) := by unfold lengthRef; rw [← valueAt_eq, hl]
  rw [fetch_used hf hk f hn] at h
  unfold fetchUsed at h
  simp only [hs, hr] at h
  unfold fetchStream at h
  cases hi : (fetch c file secs f st k m).obj >>= toInt with
  | error er => simp only [hi] at h; cases h
  | ok l =>
    simp only [hi] at h
    cases ht : streamTail (fileEnv file (lookInt (fetch c file secs f st))) d data ((fetch c file secs f st k m).pos.getD data) l r with
    | error er => simp only [ht] at h; cases h
    | ok y =>
      obtain ⟨body, found, rem⟩ := y
      simp only [ht] at h
      cases he : streamEnd n g tn tg rem with
      | error er => simp only [he] at h; cases h
      | ok u =>
        simp only [he, keep_obj] at h
        injection h with h
        refine ⟨body, h.symm, ?_⟩
        unfold streamTail at ht
        obtain ⟨⟨t, r3⟩, _, ht⟩ := except_bind_ok ht
        dsimp only at ht
        by_cases hc : (t.type == .keyword (b! "endstream")) = true
        · rw [if_pos hc] at ht
          by_cases hneg : l < 0
          · rw [if_pos hneg] at ht; cases ht
          · rw [if_neg hneg] at ht
            injection ht with ht; injection ht with ht _
            rw [← ht]; exact List.take_prefix _ _
        · rw [if_neg hc] at ht
          obtain ⟨⟨d', rem'⟩, _, ht⟩ := except_bind_ok ht
          obtain ⟨found', hf', ht⟩ := except_bind_ok ht
          injection ht with ht; injection ht with ht _
          subst ht
          unfold rawBody at hf'
          cases hm : mapFind (b! "Length") d' with
          | none => rw [hm] at hf'; cases hf'
          | some lo =>
            rw [hm] at hf'
            dsimp only at hf'
            obtain ⟨i, _, hf'⟩ := except_bind_ok hf'
            by_cases hneg : i < 0
            · rw [if_pos hneg] at hf'; cases hf'
            · rw [if_neg hneg] at hf'
              injection hf' with hf'
              rw [← hf']; exact List.take_prefix _ _

/-- **C63** (partial): loading an object again gives the same object, and loads in between leave it as it was. -/
theorem C63_again_partial (hc : Consistent c file secs) (hp : PlainLengths c file secs) (f f' : Nat)
    (before between : List (Nat × Nat)) (n g : Nat) (o o' : SObj)
    (h : (fetch c file secs f (fetchAll c file secs f' {} before) n g).obj = .ok o)
    (h' : (fetch c file secs f (fetchAll c file secs f' {} (before ++ (n, g) :: between)) n g).obj = .ok o') : o' = o := by
  obtain ⟨a, ha⟩ := C63_no_other_value_partial hc hp f f' before n g o h
  obtain ⟨b, hb⟩ := C63_no_other_value_partial hc hp f f' _ n g o' h'
  have h1 := ha _ (Nat.le_max_left a b)
  rw [hb _ (Nat.le_max_right a b)] at h1; injection h1

/-! ### files that are consistent -/

/-- A test of `Consistent`. -/
def checkConsistent (c : Codec) (file : Bytes) (secs : List ReadSection) (f : Nat) : Bool :=
  secs.all fun s => s.1.all fun x =>
    match x.kind with
    | .compressed sn _ =>
      x.gen == 0 &&
      (match findRead secs sn 0 with
        | some ⟨_, _, .used _⟩ => true
        | _ => false) &&
      (match freshLoad c file secs f sn 0 with
        | .ok stm =>
          match objStmContent c (resolveIn c file secs f {}) stm with
          | .ok l => l.all fun y =>
            match findRead secs y.1 0 with
            | some ⟨_, _, .compressed s _⟩ => s == sn
            | _ => false
          | .error _ => false
        | .error _ => false)
    | _ => true

theorem findRead_mem (l : List ReadSection) {n g : Nat} {x : XEntry} (h : findRead l n g = some x) :
    (∃ s ∈ l, x ∈ s.1) ∧ x.gen = g := by
  induction l with
  | nil => cases h
  | cons s l ih =>
    rw [findRead] at h
    cases hf : EntrySet.find n s.1 with
    | none =>
      rw [hf] at h
      obtain ⟨⟨s', h1, h2⟩, h3⟩ := ih h
      exact ⟨⟨s', by simp [h1], h2⟩, h3⟩
    | some e =>
      rw [hf] at h
      dsimp only at h
      by_cases hg : e.gen = g
      · rw [if_pos hg] at h; injection h with h; subst h
        exact ⟨⟨s, by simp, List.mem_of_find?_eq_some hf⟩, hg⟩
      · rw [if_neg hg] at h
        obtain ⟨⟨s', h1, h2⟩, h3⟩ := ih h
        exact ⟨⟨s', by simp [h1], h2⟩, h3⟩

theorem consistent_of_check (f : Nat) (h : checkConsistent c file secs f = true) : Consistent c file secs := by
  have key : ∀ n g x sn i, findRead secs n g = some x → x.kind = .compressed sn i →
      g = 0 ∧ (∃ y off, findRead secs sn 0 = some y ∧ y.kind = .used off) ∧
      ∃ stm l, freshLoad c file secs f sn 0 = .ok stm ∧ objStmContent c (resolveIn c file secs f {}) stm = .ok l ∧
        ∀ y ∈ l, ∃ x j, findRead secs y.1 0 = some x ∧ x.kind = .compressed sn j := by
    intro n g x sn i hf hk
    obtain ⟨⟨s, hs, hx⟩, hg⟩ := findRead_mem _ hf
    have := List.all_eq_true.mp (List.all_eq_true.mp h s hs) x hx
    simp only [hk, Bool.and_eq_true] at this
    obtain ⟨⟨h1, h2⟩, h3⟩ := this
    refine ⟨by rw [← hg]; simpa using h1, ?_, ?_⟩
    · cases hy : findRead secs sn 0 with
      | none => rw [hy] at h2; cases h2
      | some y =>
        rw [hy] at h2
        obtain ⟨a, b, k⟩ := y
        cases k with
        | used off => exact ⟨_, off, rfl, rfl⟩
        | _ => cases h2
    · cases hl : freshLoad c file secs f sn 0 with
      | error e => rw [hl] at h3; cases h3
      | ok stm =>
        rw [hl] at h3
        dsimp only at h3
        cases hcn : objStmContent c (resolveIn c file secs f {}) stm with
        | error e => rw [hcn] at h3; cases h3
        | ok l =>
          rw [hcn] at h3
          refine ⟨stm, l, rfl, hcn, fun y hy => ?_⟩
          have := List.all_eq_true.mp h3 y hy
          cases hz : findRead secs y.1 0 with
          | none => rw [hz] at this; cases this
          | some z =>
            rw [hz] at this
            obtain ⟨a, b, k⟩ := z
            cases k with
            | compressed s j => simp at this; subst this; exact ⟨_, j, rfl, rfl⟩
            | _ => cases this
  refine ⟨fun n g x sn i hf hk => ⟨(key n g x sn i hf hk).1, (key n g x sn i hf hk).2.1⟩, ?_⟩
  intro n g x sn i hf hk f' stm' l' h1 h2
  obtain ⟨_, _, stm, l, h3, h4, h5⟩ := key n g x sn i hf hk
  have := fresh_unique h1 h3
  subst this
  have mono : ∀ {a b : Nat}, a ≤ b → ∀ n g i, resolveIn c file secs a {} n g = .ok i → resolveIn c file secs b {} n g = .ok i :=
    fun hab => resolveIn_le (fun n g o h => fresh_mono hab h)
  have a1 := objStmContent_le (mono (Nat.le_max_left f f')) h4
  have a2 := objStmContent_le (mono (Nat.le_max_right f f')) h2
  rw [a1] at a2; injection a2 with a2; subst a2
  exact h5

/-- A test of `PlainLengths`. -/
def checkLengths (c : Codec) (file : Bytes) (secs : List ReadSection) (f : Nat) : Bool :=
  secs.all fun s => s.1.all fun x =>
    match x.kind with
    | .used off =>
      let e := fileEnv file fun _ _ => .error .conversion
      match streamHead e (file.drop off.toNat) with
      | .ok (_, _, d, data, _) =>
        match lengthRef d with
        | some (k, m) =>
          (match findRead secs k m with
            | some ⟨_, _, .compressed _ _⟩ => false
            | _ => true) &&
          (match freshLoad c file secs f k m with
            | .ok (.direct (.int l)) =>
              decide (0 ≤ data + l) &&
              match readTokenSkip parserKeywords (file.drop (data + l).toNat) with
              | .ok (t, _) => t.type == .keyword (b! "endstream")
              | .error _ => false
            | _ => false)
        | none => true
      | .error _ =>
        match parseIndirect e (file.drop off.toNat) with
        | .ok (_, _, .direct _, _) => true
        | _ => false
    | _ => true

theorem plain_of_check (f : Nat) (h : checkLengths c file secs f = true) : PlainLengths c file secs := by
  have key : ∀ n g x off, findRead secs n g = some x → x.kind = .used off → ∀ d data k m, RefLengthAt c file secs off n g d data k m →
      (∀ y, findRead secs k m = some y → ∀ sn i, y.kind ≠ .compressed sn i) ∧
      ∃ l : Int, freshLoad c file secs f k m = .ok (.direct (.int l)) ∧ ∃ t r,
        readTokenSkip parserKeywords (file.drop (data + l).toNat) = .ok (t, r) ∧ t.type = .keyword (b! "endstream") ∧ 0 ≤ data + l := by
    rintro n g x off hf hk d data k m ⟨f', tn, tg, r, hs, _, _, hl⟩
    obtain ⟨⟨s, hs', hx⟩, hg⟩ := findRead_mem _ hf
    have := List.all_eq_true.mp (List.all_eq_true.mp h s hs') x hx
    simp only [hk] at this
    have le : Env.Le (fileEnv file fun _ _ => .error .conversion) (fileEnv file (resolveIn c file secs f' {})) :=
      ⟨rfl, rfl, fun n g i q => by cases q⟩
    cases h0 : streamHead (fileEnv file fun _ _ => .error .conversion) (file.drop off.toNat) with
    | error er =>
      rw [h0] at this
      dsimp only at this
      exfalso
      cases hpi : parseIndirect (fileEnv file fun _ _ => .error .conversion) (file.drop off.toNat) with
      | error er => rw [hpi] at this; cases this
      | ok y =>
        rw [hpi] at this
        obtain ⟨a, b, o, rest⟩ := y
        cases o with
        | stream d o => cases this
        | direct o =>
          have h1 := parseIndirect_le le hpi
          have := head_parsed (e := fileEnv file (resolveIn c file secs f' {})) rfl hs hl h1
          cases this
    | ok y =>
      have h1 := streamHead_le le h0
      rw [hs] at h1; injection h1 with h1; subst h1
      rw [h0] at this
      dsimp only at this
      have hlr : lengthRef d = some (k, m) := by unfold lengthRef; rw [← valueAt_eq, hl]
      rw [hlr] at this
      simp only [Bool.and_eq_true] at this
      obtain ⟨h2, h3⟩ := this
      refine ⟨fun y hy sn i hyk => ?_, ?_⟩
      · rw [hy] at h2
        obtain ⟨a, b, kk⟩ := y
        dsimp only at hyk; subst hyk; cases h2
      · cases hfl : freshLoad c file secs f k m with
        | error er => rw [hfl] at h3; cases h3
        | ok o =>
          rw [hfl] at h3
          rcases o with o | ⟨_, _⟩
          · cases o with
            | int l =>
              refine ⟨l, rfl, ?_⟩
              simp only [Bool.and_eq_true, decide_eq_true_eq] at h3
              obtain ⟨h4, h5⟩ := h3
              cases hrt : readTokenSkip parserKeywords (file.drop (data + l).toNat) with
              | error er => rw [hrt] at h5; cases h5
              | ok z => rw [hrt] at h5; exact ⟨z.1, z.2, rfl, by simpa using h5, h4⟩
            | _ => cases h3
          · cases h3
  refine ⟨fun n g x off hf hk d data k m h => (key n g x off hf hk d data k m h).1, fun n g x off hf hk d data k m h f' l hl => ?_⟩
  obtain ⟨_, l', h1, h2⟩ := key n g x off hf hk d data k m h
  rw [resolveIn_eq] at hl
  obtain ⟨o, h3, h4⟩ := except_bind_ok hl
  have := fresh_unique (c := c) (file := file) (secs := secs) (f := f') h3 h1
  subst this
  injection h4 with h4; subst h4; exact h2

/-- A section with the objects 1 and 2 in the object stream 5. -/
def compressedRev : WSection :=
  ⟨some (6, 0), [⟨0, 65535, .free 0⟩, ⟨1, 0, .compressed 5 0 (.direct (.int 10))⟩, ⟨2, 0, .compressed 5 1 (.direct (.int 20))⟩,
    ⟨5, 0, .used 0 (some (.stream [(b! "First", .int 8), (b! "N", .int 2), (b! "Type", .name (b! "ObjStm"))] (b! "1 0 2 3 10 20")))⟩,
    ⟨6, 0, .used 0 (some (.stream [] []))⟩],
    [(b! "Root", .ref 1 0), (b! "Size", .int 7), (b! "Type", .name (b! "XRef"))]⟩

/-- A newer section that replaces object 1. -/
def replacingRev : WSection :=
  ⟨some (7, 0), [⟨0, 65535, .free 0⟩, ⟨1, 0, .used 0 (some (.direct (.int 11)))⟩, ⟨7, 0, .used 0 (some (.stream [] []))⟩],
    [(b! "Root", .ref 1 0), (b! "Size", .int 8), (b! "Type", .name (b! "XRef"))]⟩

/-- A newer section that adds object 8. -/
def addingRev : WSection :=
  ⟨some (7, 0), [⟨0, 65535, .free 0⟩, ⟨7, 0, .used 0 (some (.stream [] []))⟩, ⟨8, 0, .used 0 (some (.direct (.int 11)))⟩],
    [(b! "Root", .ref 1 0), (b! "Size", .int 9), (b! "Type", .name (b! "XRef"))]⟩

/-- A newer section that adds the stream 9, whose length is object 8. -/
def streamRev : WSection :=
  ⟨some (7, 0), [⟨0, 65535, .free 0⟩, ⟨7, 0, .used 0 (some (.stream [] []))⟩, ⟨8, 0, .used 0 (some (.direct (.int 10)))⟩,
    ⟨9, 0, .used 0 (some (.stream [(b! "Length", .ref 8 0)] (b! "endstream\n")))⟩],
    [(b! "Root", .ref 1 0), (b! "Size", .int 10), (b! "Type", .name (b! "XRef"))]⟩

/-- A section with the stream 3, whose length is object 1 in the object stream 5. -/
def lengthRev : WSection :=
  ⟨some (6, 0), [⟨0, 65535, .free 0⟩, ⟨1, 0, .compressed 5 0 (.direct (.int 10))⟩, ⟨2, 0, .compressed 5 1 (.direct (.int 20))⟩,
    ⟨3, 0, .used 0 (some (.stream [(b! "Length", .ref 1 0)] (b! "some data\n")))⟩,
    ⟨5, 0, .used 0 (some (.stream [(b! "First", .int 8), (b! "N", .int 2), (b! "Type", .name (b! "ObjStm"))] (b! "1 0 2 3 10 20")))⟩,
    ⟨6, 0, .used 0 (some (.stream [] []))⟩],
    [(b! "Root", .ref 1 0), (b! "Size", .int 7), (b! "Type", .name (b! "XRef"))]⟩

/-- The text of an object, or the data of a stream, of a saved and opened document, after other objects have been loaded. -/
def loadAfter (ss : List WSection) (hist : List (Nat × Nat)) (n g : Nat) : Res Bytes := do
  let file ← saveFile plainCodec .v17 ss
  let (_, secs) ← openFile plainCodec file
  let o ← (fetch plainCodec file secs 5 (fetchAll plainCodec file secs 5 {} hist) n g).obj
  match o with
  | .direct _ => pure (writeBody o)
  | .stream _ body => pure body

/-- A file of two sections with an object stream, and a stream whose length is a reference, meets the hypotheses, and its
objects are loaded. -/
example : (∃ file v secs, saveFile plainCodec .v17 [streamRev, compressedRev] = .ok file ∧ openFile plainCodec file = .ok (v, secs) ∧
      Consistent plainCodec file secs ∧ PlainLengths plainCodec file secs) ∧
    loadAfter [streamRev, compressedRev] [] 1 0 = .ok (b! "10") ∧
    loadAfter [streamRev, compressedRev] [(9, 0), (2, 0)] 1 0 = .ok (b! "10") ∧
    loadAfter [streamRev, compressedRev] [] 9 0 = .ok (b! "endstream\n") ∧
    loadAfter [streamRev, compressedRev] [(1, 0), (8, 0)] 9 0 = .ok (b! "endstream\n") := by
  refine ⟨?_, by decide +kernel, by decide +kernel, by decide +kernel, by decide +kernel⟩
  have : (match saveFile plainCodec .v17 [streamRev, compressedRev] with
      | .error _ => false
      | .ok file => match openFile plainCodec file with
        | .error _ => false
        | .ok (_, secs) => checkConsistent plainCodec file secs 5 && checkLengths plainCodec file secs 5) = true := by decide +kernel
  cases hs : saveFile plainCodec .v17 [streamRev, compressedRev] with
  | error e => rw [hs] at this; cases this
  | ok file =>
    rw [hs] at this
    dsimp only at this
    cases ho : openFile plainCodec file with
    | error e => rw [ho] at this; cases this
    | ok r =>
      rw [ho, Bool.and_eq_true] at this
      exact ⟨file, r.1, r.2, rfl, ho, consistent_of_check 5 this.1, plain_of_check 5 this.2⟩

/-- **C63** fails of a stream whose length is in an object stream: unpacking the object stream leaves the reader elsewhere, the
length is then taken for wrong, and the search for `endstream` loses the end of the last line.  The data are complete when some
object of the object stream was loaded before. -/
theorem C63_length_counterexample :
    loadAfter [lengthRev] [] 3 0 = .ok (b! "some data") ∧
    loadAfter [lengthRev] [(2, 0)] 3 0 = .ok (b! "some data\n") ∧
    loadAfter [lengthRev] [(2, 0)] 1 0 = .ok (b! "10") ∧ loadAfter [lengthRev] [(3, 0)] 1 0 = .ok (b! "9") := by
  decide +kernel

/-- **C63** fails of a document in which an object of an object stream was replaced in a newer section: object 1 is 11, but
once object 2 has been loaded it is 10, the value of the older section; it changes even when it had been loaded before. -/
theorem C63_stale_object_counterexample :
    loadAfter [replacingRev, compressedRev] [] 1 0 = .ok (b! "11") ∧
    loadAfter [replacingRev, compressedRev] [(2, 0)] 1 0 = .ok (b! "10") ∧
    loadAfter [replacingRev, compressedRev] [(1, 0), (2, 0)] 1 0 = .ok (b! "10") := by
  decide +kernel

end VPdf
