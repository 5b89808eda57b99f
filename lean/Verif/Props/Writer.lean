import Verif.Lemmas.WriteChain
/-
  C31, C32, C40, C41: saving a file and reading it back.
-/
namespace VPdf
open Spec

/-! ### C40 -/

/-- **C40**, the entry: after `RecalculateStreamLength` the entry Length leads to the size of the body, and the other
entries are unchanged, for every header and every size. -/
theorem C40_length_entry (resolve : Nat → Nat → Res Int) (d d' : Dict) (size : Nat) (hd : Holdable (.dict d))
    (hsize : size ≤ 9223372036854775807) (h : recalcLength resolve size d = .ok d') :
    (valueAt (b! "Length") d' = some (.int size) ∨
      ∃ lo, valueAt (b! "Length") d' = some lo ∧ valueAt (b! "Length") d = some lo ∧
        asInt ⟨[], true, resolve⟩ lo = .ok size) ∧
    ∀ k, k ≠ b! "Length" → valueAt k d' = valueAt k d := by
  obtain ⟨_, h2, lo, h3, h4, h5⟩ := recalcLength_spec h hd hsize
  refine ⟨?_, fun k hk => by rw [valueAt_eq, valueAt_eq]; exact h2 k hk⟩
  rw [valueAt_eq, valueAt_eq]
  rcases h5 with rfl | h5
  · exact Or.inl h3
  · exact Or.inr ⟨lo, h3, h5, h4⟩

/-- **C40**: a stream written by the file writer, with any header and any body (`endstream` in it included), at any
position of a file, is read back with exactly the same body, provided a Length that is a reference leads to the same
number for the reader as for the writer. -/
theorem C40_body_read_back (e : Env) (resolve : Nat → Nat → Res Int) (n g : Nat) (d d' : Dict) (body pre post : Bytes)
    (hn : n ≤ 9223372036854775807) (hg : g ≤ 65535) (hd : Holdable (.dict d)) (hb : body.length ≤ 9223372036854775807)
    (h : recalcLength resolve body.length d = .ok d')
    (hi : e.initialized = true) (hr : ∀ k m, valueAt (b! "Length") d = some (.ref k m) → e.resolveInt k m = resolve k m)
    (hw : e.whole = pre ++ writeObject n g (.stream d' body) ++ post) :
    loadAt e n g pre.length = .ok (.stream (dropNullsEntries d') body) := by
  obtain ⟨h1, h2, lo, h3, h4, h5⟩ := recalcLength_spec h hd hb
  refine loadAt_written e n g (.stream d' body) pre post (by rw [hw]; simp) hn hg ⟨h1, lo, h3, Or.inl hi, ?_⟩
  cases lo with
  | ref k m =>
    rcases h5 with h5 | h5
    · cases h5
    · show e.resolveInt k m = _
      rw [hr k m (by rw [valueAt_eq]; exact h5)]; exact h4
  | _ => exact h4

/-- The body contains the end of the stream and of the object; the old Length is wrong. -/
example : recalcLength (fun _ _ => .error .missing) 18 [(b! "Length", .int 3), (b! "X", .null)] =
      .ok [(b! "Length", .int 18), (b! "X", .null)] ∧
    (loadAt ⟨b! "junk " ++ writeObject 4 0 (.stream [(b! "Length", .int 18), (b! "X", .null)] (b! "a\nendstream\nendobj")) ++ b! "..",
        true, fun _ _ => .error .missing⟩ 4 0 5).toBool = true := by
  constructor
  · rfl
  · rfl

/-! ### C32 -/

/-- The invariant before the first section is written. -/
theorem chainInv_start (c : Codec) (resolve : Nat → Nat → Res Int) (v : PdfVersion) : ChainInv c resolve (writeHeader v) none [] := by
  refine ⟨?_, by simp, rfl⟩
  have : writeHeader v = (b! "%PDF-" ++ versionText v ++ b! "\n" ++ b! "%" ++ [0xDE, 0xAD, 0xC0, 0xDE]) ++ b! "\n" := by
    simp [writeHeader]
  rw [this]; exact endsWhite_lf _

/-- Opening a saved file: the version and every section, each with its entries. -/
theorem open_saved_fair (c : Codec) (hc : Faithful c) (v : PdfVersion) (ss : List WSection) (file : Bytes) (hne : ss ≠ [])
    (hg : (∀ s ∈ ss, FairSection s) ∧ ∀ s, ss.getLast? = some s → valueAt (b! "Prev") s.trailer = none) (h : saveFile c v ss = .ok file) (hlen : file.length ≤ 9223372036854775807) :
    ∃ xs, openFile c file = .ok (v, xs) ∧ Zip (InFile c (destResolve (ss.map cloneSection).reverse) file) ss xs := by
  rw [saveFile] at h
  rw [← List.map_reverse] at h ⊢
  obtain ⟨prev, i1, i2, i3⟩ := writeChain_spec hc ss.reverse (chainInv_start c _ v) (fun s hs => hg.1 s (by simpa using hs))
    (fun _ s hs => hg.2 s (by simpa using hs)) h hlen
  obtain ⟨t, ht⟩ := writeChain_extends _ h
  cases prev with
  | none => simp at i3; exact absurd i3 hne
  | some p =>
    obtain ⟨hp, ⟨q, hq, hqo⟩, i4⟩ := i3
    obtain ⟨xs, k1, k2⟩ := i4 []
    rw [List.append_nil] at k1 k2
    simp only [List.reverse_reverse, List.append_nil] at k2 i2
    refine ⟨xs, ?_, k2⟩
    rw [openFile]
    have h1 := C23_roundtrip v t
    rw [← ht] at h1
    rw [h1, ok_bind]
    dsimp only
    have h2 := C22_roundtrip q p hq (by omega) (by omega)
    rw [← hqo] at h2
    rw [h2, ok_bind]
    have := k2.length
    rw [C24_finite_chain_partial _ _ _ _ k1 _ (by omega)]
    rfl

/-- The same for documents without object streams. -/
theorem open_saved (c : Codec) (hc : Faithful c) (v : PdfVersion) (ss : List WSection) (file : Bytes) (hne : ss ≠ [])
    (hg : GoodDoc ss) (h : saveFile c v ss = .ok file) (hlen : file.length ≤ 9223372036854775807) :
    ∃ xs, openFile c file = .ok (v, xs) ∧ Zip (InFile c (destResolve (ss.map cloneSection).reverse) file) ss xs :=
  open_saved_fair c hc v ss file hne ⟨fun s hs => (hg.1 s hs).fair, hg.2⟩ h hlen

/-- What the writer finds for a reference is in the document, in the oldest section. -/
theorem destResolve_fair (ss : List WSection) (hg : ∀ s ∈ ss, FairSection s)
    (hn : ∀ s ∈ ss, ∀ e ∈ s.entries, ∀ st j o, e.kind = .compressed st j o → s.own ≠ some (e.num, e.gen)) (n g : Nat) (i : Int)
    (h : destResolve (ss.map cloneSection) n g = .ok i) :
    ∃ o, DocHolds ss n g (.direct o) ∧ (o = .int i ∨ ∃ m p, o = .real m p ∧ m.tdiv (10 ^ p : Nat) = i) := by
  induction ss with
  | nil => cases h
  | cons s ss ih =>
    rw [List.map_cons, destResolve] at h
    have hent : (cloneSection s).entries = s.entries.map cloneEntry := rfl
    rw [hent] at h
    have good := hg s (by simp)
    cases hf : (s.entries.map cloneEntry).find? (fun e => e.num == n && e.gen == g) with
    | none =>
      rw [hf] at h
      obtain ⟨o, h1, h2⟩ := ih (fun s hs => hg s (by simp [hs])) (fun s hs => hn s (by simp [hs])) h
      refine ⟨o, .older s ss n g _ (fun e he hng => ?_) h1, h2⟩
      have := List.find?_eq_none.mp hf (cloneEntry e) (List.mem_map.mpr ⟨e, he, rfl⟩)
      simp [(cloneEntry_num e).1, (cloneEntry_num e).2, hng.1, hng.2] at this
    | some e' =>
      rw [hf] at h
      dsimp only at h
      have hm := List.mem_of_find?_eq_some hf
      have hp := List.find?_some hf
      obtain ⟨e, he, rfl⟩ := List.mem_map.mp hm
      simp only [(cloneEntry_num e).1, (cloneEntry_num e).2, Bool.and_eq_true, beq_iff_eq] at hp
      obtain ⟨rfl, rfl⟩ := hp
      have notown' := hn s (by simp) e he
      have fin : ∀ o, entryObject e = .direct o → (s.own ≠ some (e.num, e.gen)) →
          (o = .int i ∨ ∃ m p, o = .real m p ∧ m.tdiv (10 ^ p : Nat) = i) →
          ∃ o, DocHolds (s :: ss) e.num e.gen (.direct o) ∧ (o = .int i ∨ ∃ m p, o = .real m p ∧ m.tdiv (10 ^ p : Nat) = i) := by
        intro o h1 h2 h3
        refine ⟨o, ?_, h3⟩
        rw [← h1]; exact .here s ss e he h2
      have own := good.own
      obtain ⟨n, g, k⟩ := e
      have notown : ∀ off x, k = .used off (some (.direct x)) → s.own ≠ some (n, g) := by
        rintro off x rfl ho
        obtain ⟨_, _, _, _, h⟩ := own n g ho
        exact (h off _ he).2 x rfl
      cases k with
      | free x => cases h
      | used off o =>
        cases o with
        | none => cases h
        | some o =>
          cases o with
          | stream d body => cases h
          | direct o =>
            cases o with
            | int j => injection h with h; subst h; exact fin _ rfl (notown _ _ rfl) (Or.inl rfl)
            | real m p => injection h with h; exact fin _ rfl (notown _ _ rfl) (Or.inr ⟨m, p, rfl, h⟩)
            | _ => cases h
      | compressed a b o =>
        have notown' := notown' a b o rfl
        cases o with
        | stream d body => cases h
        | direct o =>
          cases o with
          | int j => injection h with h; subst h; exact fin _ rfl notown' (Or.inl rfl)
          | real m p => injection h with h; exact fin _ rfl notown' (Or.inr ⟨m, p, rfl, h⟩)
          | _ => cases h

theorem destResolve_holds (ss : List WSection) (hg : ∀ s ∈ ss, GoodSection s) (n g : Nat) (i : Int)
    (h : destResolve (ss.map cloneSection) n g = .ok i) :
    ∃ o, DocHolds ss n g (.direct o) ∧ (o = .int i ∨ ∃ m p, o = .real m p ∧ m.tdiv (10 ^ p : Nat) = i) :=
  destResolve_fair ss (fun s hs => (hg s hs).fair)
    (fun s hs _ he st j o hk => absurd hk ((good_entry (hg s hs) he).2 st j o)) n g i h

/-- **C32**, partial: when a document (of any number of sections, tables or cross-reference streams, with objects of any
size and number) has been saved, opening the output gives the version and as many sections, and loading any object gives the
same object: the same direct object, or a stream with the same header and the same body, whose Length is the size of the body.
Objects without an entry are null.  The catalogue is found.  `f + 2` is the number of loads that may be nested.
Missing: objects in object streams (`C32_object_streams_partial`); cross-reference streams without object 0 and Length entries that changed between
revisions, for which it fails (`C32_no_zero_counterexample`, `C32_length_counterexample`); the cross-reference streams
themselves (`C31_own_entry_counterexample`). -/
theorem C32_saved_document_partial (c : Codec) (hc : Faithful c) (v : PdfVersion) (ss : List WSection) (file : Bytes)
    (hne : ss ≠ []) (hg : GoodDoc ss) (hs : StableLengths ss) (h : saveFile c v ss = .ok file)
    (hlen : file.length ≤ 9223372036854775807) :
    ∃ xs, openFile c file = .ok (v, xs) ∧ xs.length = ss.length ∧
      (∀ n g o, DocHolds ss n g o → ∀ f, ∃ o', loadObject file xs (f + 2) n g = .ok o' ∧ SameObject o o' ∧
        ∀ d body, o' = .stream d body → ∃ lo, valueAt (b! "Length") d = some lo ∧
          asInt (fileEnv file (loadInt file xs (f + 1))) lo = .ok body.length) ∧
      (∀ n g, DocLacks ss n g → ∀ f, loadObject file xs (f + 1) n g = .ok (.direct .null)) ∧
      (∀ k ∈ [b! "Root", b! "Info", b! "ID", b! "Encrypt"], ∀ s x, ss.head? = some s → xs.head? = some x →
        valueAt k x.2 = valueAt k (dropNullsEntries s.trailer)) := by
  obtain ⟨xs, h1, h2⟩ := open_saved c hc v ss file hne hg h hlen
  have h2' : Zip (InFileBy c (fun _ r => r = destResolve (ss.map cloneSection).reverse) file) ss xs :=
    h2.imp fun s x hx => ⟨_, rfl, hx⟩
  refine ⟨xs, h1, h2.length.symm, fun n g o ho f => ?_, fun n g hl f => ?_, ?_⟩
  · refine load_holds h2' hg.1 hlen ho (f + 1) fun s e1 e e2 _ hr d body e3 hd k m hk i hi => ?_
    rw [hr, ← List.map_reverse] at hi
    obtain ⟨x, d1, d2⟩ := destResolve_holds ss.reverse (fun s hs => hg.1 s (by simpa using hs)) k m i hi
    have d3 : DocHolds ss k m (.direct x) := hs s e1 e e2 d body k m (by rw [e3, hd]) hk _ d1
    obtain ⟨o', l1, l2, _⟩ := load_holds h2' hg.1 hlen d3 f (fun _ _ _ _ _ _ d body _ hd => by cases hd)
    rw [loadInt, l1, ok_bind]
    cases l2
    rcases d2 with rfl | ⟨a, b, rfl, rfl⟩ <;> rfl
  · rw [loadObject_succ, findRead_lacks h2' hl]
  · intro k hk s x hs hx
    cases h2 with
    | nil => cases hs
    | cons s' x' ss xs hw _ =>
      injection hs with hs; injection hx with hx
      subst hs; subst hx
      obtain ⟨off, prev, w⟩ := hw
      rw [valueAt_eq, valueAt_eq]
      exact w.trailer k hk

/-- One section of a table kind is written when its Prev, if any, and the lengths of its streams, if any, are integers. -/
theorem writeSection_table (c : Codec) (resolve : Nat → Nat → Res Int) (out : Bytes) (prev : Option Int) (s : WSection)
    (good : GoodSection s) (how : s.own = none)
    (hprev : valueAt (b! "Prev") s.trailer = none ∨ ∃ i, valueAt (b! "Prev") s.trailer = some (.int i))
    (hlen : ∀ e ∈ s.entries, ∀ d body, entryObject e = .stream d body →
      valueAt (b! "Length") d = none ∨ ∃ i, 0 ≤ i ∧ valueAt (b! "Length") d = some (.int i)) :
    ∃ r, writeSection c resolve out prev (cloneSection s) = .ok r := by
  have hc := good.count
  have h0 : Holdable (.dict [(b! "Size", .int s.entries.length)]) :=
    .dict _ (List.pairwise_singleton _ _) (by intro x hx; simp at hx; subst hx; exact .int _ (by omega) (by omega))
  obtain ⟨h1, h2⟩ := cloneTrailer_fold s.trailer trailerKeys _ good.trailer h0
  have hsize : mapFind (b! "Size") (cloneTrailer s.entries.length s.trailer) = some (.int s.entries.length) := by
    refine (h2 _).trans ?_
    rfl
  obtain ⟨h3, h4⟩ := cloneTrailer_spec s.entries.length s.trailer good.trailer (by omega)
  have hcl : cloneSection s = ⟨none, s.entries.map cloneEntry, cloneTrailer s.entries.length s.trailer⟩ := by
    rw [cloneSection, how]
  have hset : ∀ k v (d : Dict), (mapFind k d = none ∨ ∃ i, mapFind k d = some (.int i)) → ∃ d', setInteger k v d = .ok d' := by
    rintro k v d (h | ⟨i, h⟩)
    · exact ⟨_, by rw [setInteger, h]⟩
    · exact ⟨_, by rw [setInteger, h]⟩
  have hent : ∀ es : List WEntry, (∀ e ∈ es, (∃ n g a b o, e = ⟨n, g, .compressed a b o⟩) → False) →
      (∀ e ∈ es, ∀ d body, entryObject e = .stream d body →
        valueAt (b! "Length") d = none ∨ ∃ i, 0 ≤ i ∧ valueAt (b! "Length") d = some (.int i)) →
      ∃ r, recalcEntries resolve none (es.map cloneEntry) = .ok r := by
    intro es
    induction es with
    | nil => intro _ _; exact ⟨[], rfl⟩
    | cons e es ih =>
      intro hnc hl
      obtain ⟨r, hr⟩ := ih (fun e he => hnc e (by simp [he])) (fun e he => hl e (by simp [he]))
      have : ∃ e', recalcEntry resolve none (cloneEntry e) = .ok e' := by
        have hnc := hnc e (by simp)
        have hl := hl e (by simp)
        obtain ⟨n, g, k⟩ := e
        cases k with
        | free x => exact ⟨_, rfl⟩
        | compressed a b o => exact (hnc ⟨n, g, a, b, o, rfl⟩).elim
        | used off o =>
          cases o with
          | none => exact ⟨_, rfl⟩
          | some o =>
            cases o with
            | direct o => exact ⟨_, rfl⟩
            | stream d body =>
              have : ∃ d', recalcLength resolve body.length d = .ok d' := by
                rcases hl d body rfl with h | ⟨i, hi, h⟩ <;> rw [valueAt_eq] at h
                · exact ⟨_, by rw [recalcLength, h]⟩
                · rw [recalcLength, h]
                  dsimp only
                  rw [show asInt ⟨[], true, resolve⟩ (.int i) = .ok i from rfl, ok_bind, if_neg (by omega)]
                  by_cases hh : i = body.length
                  · exact ⟨d, by rw [if_pos hh]; rfl⟩
                  · exact ⟨_, by rw [if_neg hh]; rfl⟩
              obtain ⟨d', hd'⟩ := this
              refine ⟨⟨n, g, .used off (some (.stream d' body))⟩, ?_⟩
              show recalcEntry resolve none ⟨n, g, .used off (some (.stream d body))⟩ = _
              rw [recalcEntry, if_neg (by simp)]
              dsimp only
              rw [hd', ok_bind]; rfl
      obtain ⟨e', he'⟩ := this
      exact ⟨e' :: r, by rw [List.map_cons, recalcEntries, he', ok_bind, hr, ok_bind]; rfl⟩
  have hes := hent s.entries (by
    rintro e he ⟨n, g, a, b, o, rfl⟩
    exact (good.objects _ he).elim) hlen
  obtain ⟨es, hes⟩ := hes
  have hrs : ∃ t2, recalcSection resolve prev (cloneSection s) = .ok ⟨none, es, t2⟩ := by
    rw [hcl]
    unfold recalcSection
    dsimp only
    cases prev with
    | none =>
      obtain ⟨t2, ht2⟩ := hset (b! "Size") (s.entries.map cloneEntry).length _ (Or.inr ⟨_, hsize⟩)
      exact ⟨t2, by rw [ok_bind, hes, ok_bind, ht2]; rfl⟩
    | some p =>
      have hpv := h4 (b! "Prev") (by decide)
      have hprev : mapFind (b! "Prev") s.trailer = none ∨ ∃ i, mapFind (b! "Prev") s.trailer = some (.int i) := by
        simpa only [valueAt_eq] using hprev
      rw [← hpv] at hprev
      obtain ⟨t1, ht1⟩ := hset (b! "Prev") p _ hprev
      have hs1 : mapFind (b! "Size") t1 = some (.int s.entries.length) := by
        rw [← hsize]
        rw [setInteger] at ht1
        rcases hprev with h | ⟨i, h⟩ <;> rw [h] at ht1 <;> injection ht1 with ht1 <;> subst ht1
        · rw [mapInsert_find (holdable_dict h3).1 h, if_neg (by decide)]
        · rw [dictSet_find, if_neg (by decide)]
      obtain ⟨t2, ht2⟩ := hset (b! "Size") (s.entries.map cloneEntry).length _ (Or.inr ⟨_, hs1⟩)
      refine ⟨t2, ?_⟩
      dsimp only
      rw [ht1, ok_bind, hes, ok_bind, ht2]; rfl
  obtain ⟨t2, hrs⟩ := hrs
  unfold writeSection
  rw [hrs, ok_bind]
  exact ⟨_, rfl⟩

/-- Documents of tables are saved: a file results, of which `C32_saved_document_partial` speaks, whenever the Prev entries of
the trailers and the Length entries of the streams, as far as they are there, are integers. -/
theorem C32_tables_are_saved (c : Codec) (v : PdfVersion) (ss : List WSection) (hg : ∀ s ∈ ss, GoodSection s)
    (how : ∀ s ∈ ss, s.own = none)
    (hprev : ∀ s ∈ ss, valueAt (b! "Prev") s.trailer = none ∨ ∃ i, valueAt (b! "Prev") s.trailer = some (.int i))
    (hlen : ∀ s ∈ ss, ∀ e ∈ s.entries, ∀ d body, entryObject e = .stream d body →
      valueAt (b! "Length") d = none ∨ ∃ i, 0 ≤ i ∧ valueAt (b! "Length") d = some (.int i)) :
    ∃ file, saveFile c v ss = .ok file := by
  have key : ∀ (resolve : Nat → Nat → Res Int) (l : List WSection), (∀ s ∈ l, s ∈ ss) → ∀ out prev,
      ∃ file, writeChain c resolve out prev (l.map cloneSection) = .ok file := by
    intro resolve l
    induction l with
    | nil => intro _ out prev; exact ⟨out, rfl⟩
    | cons s l ih =>
      intro hl out prev
      have hs := hl s (by simp)
      obtain ⟨⟨out', off, s'⟩, h1⟩ := writeSection_table c resolve out prev s (hg s hs) (how s hs) (hprev s hs) (hlen s hs)
      obtain ⟨file, h2⟩ := ih (fun s hs => hl s (by simp [hs])) out' (some off)
      exact ⟨file, by rw [List.map_cons, writeChain, h1, ok_bind]; exact h2⟩
  rw [saveFile, ← List.map_reverse]
  exact key _ ss.reverse (by simp) _ _

/-- Stream bodies as they are. -/
def plainCodec : Codec := ⟨fun _ b => .ok b, fun _ b => .ok b⟩

/-- A table with a stream whose Length is a reference and whose body is `endstream`. -/
def sampleOld : WSection :=
  ⟨none, [⟨0, 65535, .free 0⟩, ⟨1, 0, .used 0 (some (.direct (.dict [(b! "Type", .name (b! "Catalog"))])))⟩,
    ⟨2, 0, .used 0 (some (.stream [(b! "Length", .ref 3 0)] (b! "endstream")))⟩,
    ⟨3, 0, .used 0 (some (.direct (.int 9)))⟩], [(b! "Root", .ref 1 0), (b! "Size", .int 4)]⟩

/-- A cross-reference stream with a new revision of the catalogue. -/
def sampleNew : WSection :=
  ⟨some (5, 0), [⟨0, 65535, .free 0⟩, ⟨1, 0, .used 0 (some (.direct (.dict [(b! "Type", .name (b! "Catalog")), (b! "X", .null)])))⟩,
    ⟨5, 0, .used 0 (some (.stream [] []))⟩], [(b! "Root", .ref 1 0), (b! "Size", .int 6), (b! "Type", .name (b! "XRef"))]⟩

theorem sampleOld_good : GoodSection sampleOld := by
  refine ⟨by decide, by decide, by decide, ?_, ?_, by intro n g h; cases h⟩
  · intro e he
    simp only [sampleOld, List.mem_cons, List.not_mem_nil, or_false] at he
    rcases he with rfl | rfl | rfl | rfl <;> dsimp only
    · rintro x ⟨⟩; exact .dict _ (by unfold SortedKeys; decide) (by intro x hx; simp at hx; subst hx; exact .name _)
    · rintro x ⟨⟩; exact .dict _ (by unfold SortedKeys; decide) (by intro x hx; simp at hx; subst hx; exact .ref _ _ (by decide) (by decide))
    · rintro x ⟨⟩; exact .int _ (by decide) (by decide)
  · refine .dict _ (by unfold SortedKeys; decide) ?_
    intro x hx
    simp only [sampleOld, List.mem_cons, List.not_mem_nil, or_false] at hx
    rcases hx with rfl | rfl
    · exact .ref _ _ (by decide) (by decide)
    · exact .int _ (by decide) (by decide)

theorem sampleNew_good : GoodSection sampleNew := by
  refine ⟨by decide, by decide, by decide, ?_, ?_, ?_⟩
  · intro e he
    simp only [sampleNew, List.mem_cons, List.not_mem_nil, or_false] at he
    rcases he with rfl | rfl | rfl <;> dsimp only
    · rintro x ⟨⟩
      refine .dict _ (by unfold SortedKeys; decide) ?_
      intro x hx
      simp only [List.mem_cons, List.not_mem_nil, or_false] at hx
      rcases hx with rfl | rfl
      · exact .name _
      · exact .null
    · rintro x ⟨⟩; exact .dict _ (by unfold SortedKeys; decide) (by simp)
  · refine .dict _ (by unfold SortedKeys; decide) ?_
    intro x hx
    simp only [sampleNew, List.mem_cons, List.not_mem_nil, or_false] at hx
    rcases hx with rfl | rfl | rfl
    · exact .ref _ _ (by decide) (by decide)
    · exact .int _ (by decide) (by decide)
    · exact .name _
  · intro n g h
    injection h with h; injection h with h1 h2
    subst h1; subst h2
    refine ⟨by decide, by decide, ⟨⟨0, 65535, .free 0⟩, by simp [sampleNew], rfl⟩, Or.inl (by rfl), ?_⟩
    intro off o he
    simp only [sampleNew, List.mem_cons, List.not_mem_nil, or_false] at he
    rcases he with h | h | h <;> cases h
    exact ⟨by decide, fun x hx => by cases hx⟩

/-- The hypotheses of `C32_saved_document_partial` hold of two sections of different kinds with a change between them. -/
example : GoodDoc [sampleNew, sampleOld] ∧ StableLengths [sampleNew, sampleOld] ∧
    DocHolds [sampleNew, sampleOld] 2 0 (.stream [(b! "Length", .ref 3 0)] (b! "endstream")) ∧ Faithful plainCodec ∧
    (saveFile plainCodec .v17 [sampleNew, sampleOld]).toBool = true := by
  refine ⟨⟨?_, ?_⟩, ?_, ?_, ?_, by decide +kernel⟩
  · intro s hs
    simp only [List.mem_cons, List.not_mem_nil, or_false] at hs
    rcases hs with rfl | rfl
    · exact sampleNew_good
    · exact sampleOld_good
  · intro s hs; cases hs; rfl
  · intro s hs e he d body n g h1 h2 o h3
    have hno : ∀ e ∈ sampleNew.entries, ¬ (e.num = 3 ∧ e.gen = 0) := by decide
    have hng : n = 3 ∧ g = 0 := by
      simp only [List.mem_cons, List.not_mem_nil, or_false] at hs
      rcases hs with rfl | rfl
      · simp only [sampleNew, List.mem_cons, List.not_mem_nil, or_false] at he
        rcases he with rfl | rfl | rfl <;> cases h1
        cases h2
      · simp only [sampleOld, List.mem_cons, List.not_mem_nil, or_false] at he
        rcases he with rfl | rfl | rfl | rfl <;> cases h1
        cases h2
        exact ⟨rfl, rfl⟩
    obtain ⟨rfl, rfl⟩ := hng
    refine .older _ _ _ _ _ hno ?_
    rw [show [sampleNew, sampleOld].reverse = [sampleOld, sampleNew] from rfl] at h3
    generalize hn : (3 : Nat) = n at h3
    generalize hg : (0 : Nat) = g at h3
    cases h3 with
    | here _ _ e he hown => exact .here _ _ e he hown
    | older _ _ _ _ _ hn' h =>
      subst hn; subst hg
      exact absurd ⟨rfl, rfl⟩ (hn' ⟨3, 0, .used 0 (some (.direct (.int 9)))⟩ (by simp [sampleOld]))
  · refine .older _ _ _ _ _ (by decide) ?_
    exact .here _ _ ⟨2, 0, .used 0 (some (.stream [(b! "Length", .ref 3 0)] (b! "endstream")))⟩ (by simp [sampleOld]) (by decide)
  · intro d d' b x h _
    injection h with h; subst h; rfl

/-- The hypotheses of `C32_tables_are_saved`: Length absent and Length wrong. -/
example : ∀ e ∈ [(⟨2, 0, .used 0 (some (.stream [] (b! "a")))⟩ : WEntry), ⟨2, 0, .used 0 (some (.stream [(b! "Length", .int 8)] (b! "a")))⟩],
    ∀ d body, entryObject e = .stream d body →
      valueAt (b! "Length") d = none ∨ ∃ i, 0 ≤ i ∧ valueAt (b! "Length") d = some (.int i) := by
  intro e he d body h
  simp only [List.mem_cons, List.not_mem_nil, or_false] at he
  rcases he with rfl | rfl <;> cases h
  · exact Or.inl rfl
  · exact Or.inr ⟨8, by decide, rfl⟩

/-- Save a document, open the file, and load an object: the text of the object. -/
def reload (c : Codec) (ss : List WSection) (n g : Nat) : Res Bytes := do
  let file ← saveFile c .v17 ss
  let (_, xs) ← openFile c file
  let o ← loadObject file xs 4 n g
  pure (writeBody o)

/-- What the sample document above gives. -/
example : reload plainCodec [sampleNew, sampleOld] 2 0 = .ok (b! "<</Length 3 0 R>>\nstream\nendstreamendstream") ∧
    reload plainCodec [sampleNew, sampleOld] 1 0 = .ok (b! "<</Type /Catalog>>") ∧
    reload plainCodec [sampleNew, sampleOld] 7 0 = .ok (b! "null") := by
  refine ⟨?_, ?_, ?_⟩ <;> decide +kernel

/-- **C32** fails for a cross-reference stream without an entry for object 0: in the document object 3 is 8, in the saved
file it is 9, as it was before the last revision (the first entry of the section gets the number 0, see C21). -/
theorem C32_no_zero_counterexample :
    let ss : List WSection := [⟨some (5, 0), [⟨3, 0, .used 0 (some (.direct (.int 8)))⟩, ⟨5, 0, .used 0 (some (.stream [] []))⟩],
      [(b! "Root", .ref 1 0), (b! "Size", .int 6), (b! "Type", .name (b! "XRef"))]⟩, sampleOld]
    DocHolds ss 3 0 (.direct (.int 8)) ∧ reload plainCodec ss 3 0 = .ok (b! "9") := by
  refine ⟨?_, by decide +kernel⟩
  exact .here _ _ ⟨3, 0, .used 0 (some (.direct (.int 8)))⟩ (by simp) (by decide)

/-- **C32** fails for a stream whose Length refers to a number that changed between revisions: the body of object 2 is
`abcdefghi`, and the first revision of object 3 is its size, 9; in the last revision object 3 is 4.  The Length is not
updated, and the saved stream is read as `abcd`. -/
theorem C32_length_counterexample :
    let ss : List WSection := [⟨none, [⟨0, 65535, .free 0⟩, ⟨3, 0, .used 0 (some (.direct (.int 4)))⟩], [(b! "Root", .ref 1 0)]⟩,
      ⟨none, [⟨0, 65535, .free 0⟩, ⟨2, 0, .used 0 (some (.stream [(b! "Length", .ref 3 0)] (b! "abcdefghi")))⟩,
        ⟨3, 0, .used 0 (some (.direct (.int 9)))⟩], [(b! "Root", .ref 1 0)]⟩]
    DocHolds ss 2 0 (.stream [(b! "Length", .ref 3 0)] (b! "abcdefghi")) ∧
    reload plainCodec ss 2 0 = .ok (b! "<</Length 3 0 R>>\nstream\nabcdendstream") := by
  refine ⟨.older _ _ _ _ _ (by decide) ?_, by decide +kernel⟩
  exact .here _ _ ⟨2, 0, .used 0 (some (.stream [(b! "Length", .ref 3 0)] (b! "abcdefghi")))⟩ (by simp) (by decide)

/-! ### C31 -/

/-- **C31**, partial: every entry in use that a reader of the saved file finds, in any section, has the position of the text
`N G obj`.  Missing: the entries that cross-reference streams have for themselves, see `C31_own_entry_counterexample`. -/
theorem C31_recorded_offsets_partial (c : Codec) (hc : Faithful c) (v : PdfVersion) (ss : List WSection) (file : Bytes)
    (hne : ss ≠ []) (hg : GoodDoc ss) (h : saveFile c v ss = .ok file) (hlen : file.length ≤ 9223372036854775807) :
    ∃ xs, openFile c file = .ok (v, xs) ∧ ∀ x ∈ xs, ∀ y ∈ x.1, ∀ off, y.kind = .used off →
      (∀ s ∈ ss, s.own ≠ some (y.num, y.gen)) →
      ∃ (pos : Nat) (n g : Bytes), off = pos ∧ IntText y.num n ∧ IntText y.gen g ∧ n ++ b! " " ++ g ++ b! " obj" <+: file.drop pos := by
  obtain ⟨xs, h1, h2⟩ := open_saved c hc v ss file hne hg h hlen
  refine ⟨xs, h1, fun x hx y hy off hk hown => ?_⟩
  obtain ⟨s, hs, _, _, w⟩ := h2.right x hx
  obtain ⟨e, he, e1, e2⟩ := w.only y hy
  obtain ⟨y', hy', st⟩ := w.there e he
  have heq : y' = y := by
    have a := find_of_mem w.distinct hy
    have b := find_of_mem w.distinct hy'
    rw [st.1, ← e1, a] at b
    injection b with b; exact b.symm
  subst heq
  obtain ⟨s1, s2, s3⟩ := st
  have s3 := s3.1 (by rw [← s1, ← s2]; exact hown s hs)
  have nc := (good_entry (hg.1 s hs) he).2
  obtain ⟨n, g, k⟩ := e
  cases k with
  | free x => obtain ⟨m, s3⟩ := s3; rw [s3] at hk; cases hk
  | used off' o =>
    obtain ⟨pre, post, o', k1, k2, _⟩ := s3
    rw [k1] at hk; injection hk with hk
    refine ⟨pre.length, natDec n, natDec g, hk.symm, by rw [s1]; exact natDec_text n, by rw [s2]; exact natDec_text g, ?_⟩
    refine ⟨b! "\n" ++ writeBody o' ++ b! "\nendobj\n" ++ post, ?_⟩
    rw [k2, List.drop_left]
    simp [writeObject]
  | compressed _ _ _ => exact absurd rfl (nc _ _ _)

/-- **C31** fails for the entry that a cross-reference stream has for itself: whatever offset it had before is recorded
again, although the stream is written at `off`. -/
theorem C31_own_entry_counterexample (c : Codec) (resolve : Nat → Nat → Res Int) (out out' : Bytes) (prev : Option Int)
    (s s' : WSection) (n g : Nat) (old off : Int) (d : Dict) (body : Bytes) (hown : s.own = some (n, g))
    (he : ⟨n, g, .used old (some (.stream d body))⟩ ∈ s.entries)
    (h : writeSection c resolve out prev s = .ok (out', off, s')) :
    ⟨n, g, .used old⟩ ∈ s'.entries.map WEntry.plain ∧
    ∃ t t', out' = t ++ (natDec n ++ b! " " ++ natDec g ++ b! " obj\n") ++ t' ∧ off = t.length := by
  rw [writeSection] at h
  obtain ⟨s1, h1, h⟩ := except_bind_ok h
  have own1 : s1.own = s.own ∧ Zip (Recalced resolve s.own) s.entries s1.entries := by
    unfold recalcSection at h1
    obtain ⟨t1, _, h1⟩ := except_bind_ok h1
    obtain ⟨es, h2, h1⟩ := except_bind_ok h1
    obtain ⟨t2, _, h1⟩ := except_bind_ok h1
    injection h1 with h1; subst h1
    exact ⟨rfl, recalcEntries_spec h2⟩
  obtain ⟨own1, z1⟩ := own1
  obtain ⟨t, w1, _, w3⟩ := writeObjects_spec s1.own s1.entries out
  rcases hwo : writeObjects s1.own out s1.entries with ⟨o1, es3⟩
  rw [hwo] at h w1 w3
  dsimp only at h w1 w3
  subst w1
  obtain ⟨⟨out2, off2⟩, hx, h⟩ := except_bind_ok h
  injection h with h; injection h with e1 h; injection h with e2 e3
  subst e1; subst e2; subst e3
  constructor
  · obtain ⟨e2, he2, r⟩ := z1.left _ he
    obtain ⟨r1, r2, r3⟩ := r
    rw [if_pos hown] at r3
    subst r3
    obtain ⟨e3, he3, r⟩ := w3.left _ he2
    obtain ⟨r1, r2, r3⟩ := r
    rw [if_pos (by rw [own1, hown])] at r3
    subst r3
    exact List.mem_map.mpr ⟨_, he3, rfl⟩
  · rw [writeXref] at hx
    dsimp only at hx
    rw [own1, hown] at hx
    dsimp only at hx
    obtain ⟨data, d1, hx⟩ := except_bind_ok hx
    obtain ⟨body, d2, hx⟩ := except_bind_ok hx
    obtain ⟨dd, d3, hx⟩ := except_bind_ok hx
    injection hx with hx; injection hx with x1 x2
    refine ⟨out ++ t, writeBody (.stream dd body) ++ b! "\nendobj\n" ++ writeXrefOffset (out ++ t).length, ?_, x2.symm⟩
    dsimp only
    rw [← x1]; simp [writeObject]

/-! ### C41 -/

theorem ascending_last (l : List Nat) (b : Nat) (hs : l.Pairwise (· < ·)) (hb : ∀ x ∈ l, b ≤ x) (hne : l ≠ []) :
    ∃ y ∈ l, b + l.length ≤ y + 1 := by
  induction l generalizing b with
  | nil => exact absurd rfl hne
  | cons x l ih =>
    rw [List.pairwise_cons] at hs
    by_cases hl : l = []
    · subst hl; exact ⟨x, by simp, by have := hb x (by simp); simp; omega⟩
    · obtain ⟨y, hy, h⟩ := ih (b + 1) hs.2 (fun z hz => by have := hs.1 z hz; have := hb x (by simp); omega) hl
      exact ⟨y, by simp [hy], by simp; omega⟩

theorem ascending_closed (l : List Nat) (b : Nat) (hs : l.Pairwise (· < ·)) (hb : ∀ x ∈ l, b ≤ x) :
    (∀ x ∈ l, x < b + l.length) ↔ ∀ x ∈ l, ∀ k, b ≤ k → k < x → k ∈ l := by
  induction l generalizing b with
  | nil => simp
  | cons x l ih =>
    have hb' := hb x (by simp)
    rw [List.pairwise_cons] at hs
    constructor
    · intro h
      have hx : x = b := by
        by_contra hne
        obtain ⟨y, hy, h1⟩ := ascending_last (x :: l) x (List.pairwise_cons.mpr hs) (fun z hz => by
          rcases List.mem_cons.mp hz with rfl | hz
          · omega
          · have := hs.1 z hz; omega) (by simp)
        have := h y hy
        omega
      subst hx
      have ih := (ih (x + 1) hs.2 (fun z hz => hs.1 z hz)).mp (fun z hz => by have := h z (by simp [hz]); simp at this; omega)
      intro z hz k hk hkz
      rcases List.mem_cons.mp hz with rfl | hz
      · omega
      · by_cases hkx : k = x
        · simp [hkx]
        · exact List.mem_cons_of_mem _ (ih z hz k (by omega) hkz)
    · intro h
      have hx : x = b := by
        by_contra hne
        have := h x (by simp) b (Nat.le_refl _) (by omega)
        rcases List.mem_cons.mp this with h1 | h1
        · omega
        · have := hs.1 b h1; omega
      subst hx
      have ih := (ih (x + 1) hs.2 (fun z hz => hs.1 z hz)).mpr (fun z hz k hk hkz => by
        rcases List.mem_cons.mp (h z (by simp [hz]) k (by omega) hkz) with h1 | h1
        · omega
        · exact h1)
      intro z hz
      rcases List.mem_cons.mp hz with rfl | hz
      · simp
      · have := ih z hz; simp; omega

/-- **C41**, exactly: the Size that a section is written with is greater than all its object numbers if and only if the
numbers have no gaps: with each number the section has all lower ones. -/
theorem C41_size_iff_no_gaps (resolve : Nat → Nat → Res Int) (prev : Option Int) (s s' : WSection) (good : GoodSection s)
    (hp : ∀ p, prev = some p → 0 ≤ p ∧ p ≤ 9223372036854775807) (h : recalcSection resolve prev s = .ok s') :
    ∃ size : Nat, valueAt (b! "Size") s'.trailer = some (.int size) ∧
      ((∀ e ∈ s'.entries, e.num < size) ↔ ∀ e ∈ s.entries, ∀ k, k < e.num → ∃ x ∈ s.entries, x.num = k) := by
  obtain ⟨_, z, _, _, r5, _⟩ := recalcSection_spec h good.trailer good.count hp
  refine ⟨s.entries.length, by rw [valueAt_eq]; exact r5, ?_⟩
  have nums : s'.entries.map WEntry.num = s.entries.map WEntry.num := z.map_eq (fun a b h => h.1)
  have hs : (s.entries.map WEntry.num).Pairwise (· < ·) := List.pairwise_map.mpr good.sorted
  have key := ascending_closed (s.entries.map WEntry.num) 0 hs (by simp)
  have left : (∀ e ∈ s'.entries, e.num < s.entries.length) ↔ ∀ x ∈ s.entries.map WEntry.num, x < 0 + (s.entries.map WEntry.num).length := by
    rw [← nums]
    simp [z.length]
  rw [left, key]
  constructor
  · intro h e he k hk
    obtain ⟨x, hx, h⟩ := List.mem_map.mp (h e.num (List.mem_map.mpr ⟨e, he, rfl⟩) k (by omega) hk)
    exact ⟨x, hx, h⟩
  · intro h x hx k _ hk
    obtain ⟨e, he, rfl⟩ := List.mem_map.mp hx
    obtain ⟨y, hy, h⟩ := h e he k hk
    exact List.mem_map.mpr ⟨y, hy, h⟩

/-- **C41** fails for the entries 0 and 7: the Size is 2. -/
theorem C41_gap_counterexample :
    recalcSection (fun _ _ => .error .missing) none
        ⟨none, [⟨0, 65535, .free 0⟩, ⟨7, 0, .used 0 (some (.direct .null))⟩], [(b! "Size", .int 8)]⟩ =
      .ok ⟨none, [⟨0, 65535, .free 0⟩, ⟨7, 0, .used 0 (some (.direct .null))⟩], [(b! "Size", .int 2)]⟩ := rfl

end VPdf
