import Verif.Lemmas.Incremental
/-
  C33, C34, C62: saving the changes of a file.
-/
namespace VPdf
open Spec

/-! ### C33 -/

/-- **C33.** The output of an incremental save starts with all bytes of the source, unchanged, for every source (any size:
the copy runs in blocks of 4096 bytes) and every state of the document in memory. -/
theorem C33_source_is_prefix (c : Codec) (src out : Bytes) (secs : List ISection)
    (h : saveIncremental c src secs = .ok out) : src <+: out ∧ src.length < out.length := by
  rw [saveIncremental] at h
  obtain ⟨s, h1, h⟩ := except_bind_ok h
  obtain ⟨⟨o, off, s'⟩, h2, h⟩ := except_bind_ok h
  injection h with h; subst h
  obtain ⟨t, ht, _⟩ := writeSection_extends h2
  rw [copyContent_eq] at ht
  exact ⟨⟨b! "\n" ++ t, by rw [ht]; simp⟩, by rw [ht]; simp⟩

/-! ### C34 -/

/-- The hypothesis of `C33_source_is_prefix` and what it says, for a source of 10000 bytes. -/
example : (saveIncremental plainCodec (List.replicate 10000 65) [⟨none, [], [(b! "Root", .ref 1 0)], 0⟩]).toBool = true := by
  decide +kernel

theorem saved_inv (c : Codec) (hc : Faithful c) (v : PdfVersion) (ss : List WSection) (file : Bytes) (hne : ss ≠ [])
    (hg : GoodDoc ss) (h : saveFile c v ss = .ok file) (hlen : file.length ≤ 9223372036854775807) :
    ∃ p, ChainInv c (destResolve (ss.map cloneSection).reverse) file (some p) ss := by
  rw [saveFile] at h
  rw [← List.map_reverse] at h ⊢
  obtain ⟨prev, i⟩ := writeChain_spec hc ss.reverse (chainInv_start c _ v) (fun s hs => (hg.1 s (by simpa using hs)).fair)
    (fun _ s hs => hg.2 s (by simpa using hs)) h hlen
  simp only [List.reverse_reverse, List.append_nil] at i
  cases prev with
  | none => exact absurd i.2.2 hne
  | some p => exact ⟨p, i⟩

theorem saved_header {c : Codec} {v : PdfVersion} {ss : List WSection} {file : Bytes} (h : saveFile c v ss = .ok file)
    (more : Bytes) : ∃ r, readHeader (file ++ more) = .ok (v, r) := by
  rw [saveFile] at h
  obtain ⟨t, ht⟩ := writeChain_extends _ h
  exact ⟨_, by rw [ht, List.append_assoc]; exact C23_roundtrip v _⟩

theorem createIncremental_ok {cur : List ISection} {t : WSection} (h : createIncremental cur = .ok t) :
    ∃ i cur', cur = i :: cur' ∧ t.own = none ∧
      (cur.flatMap ISection.entries).foldlM incEntry [⟨0, 65535, .free 0⟩] = .ok t.entries ∧
      t.trailer = if (cur.flatMap ISection.entries).any IEntry.dirty then
        mapInsert (b! "Prev") (.int i.offset) (cloneTrailer i.entries.length i.trailer)
        else cloneTrailer i.entries.length i.trailer := by
  rw [createIncremental] at h
  obtain ⟨es, h1, h⟩ := except_bind_ok h
  cases cur with
  | nil => cases h
  | cons i cur' =>
    injection h with h; subst h
    exact ⟨i, cur', rfl, rfl, h1, rfl⟩

/-- The new section is one that can be saved. -/
theorem inc_good {cur : List ISection} {t : WSection} (h : createIncremental cur = .ok t)
    (hg : ∀ i ∈ cur, GoodSection i.plain) (hcount : (cur.flatMap ISection.entries).length < 2147483648)
    (hoff : ∀ i, cur.head? = some i → 0 ≤ i.offset ∧ i.offset ≤ 9223372036854775807) : GoodSection t := by
  obtain ⟨i, cur', rfl, h1, h2, h3⟩ := createIncremental_ok h
  obtain ⟨r1, r2, r3, _, _⟩ := incEntries_spec _ h2 (List.pairwise_singleton _ _)
  have from' : ∀ y ∈ t.entries, y = ⟨0, 65535, .free 0⟩ ∨ ∃ k ∈ i :: cur', ∃ j ∈ k.entries, incOf j = some y := by
    intro y hy
    rcases r3 y hy with h | ⟨j, hj, _, h⟩
    · exact Or.inl (by simpa using h)
    · obtain ⟨k, hk, hjk⟩ := List.mem_flatMap.mp hj
      exact Or.inr ⟨k, hk, j, hjk, h⟩
  refine ⟨r1, ?_, ?_, ?_, ?_, ?_⟩
  · simp only [List.length_singleton] at r2; omega
  · intro y hy
    rcases from' y hy with rfl | ⟨k, hk, j, hj, h⟩
    · exact ⟨by simp, by simp⟩
    · obtain ⟨n1, n2, _⟩ := incOf_num h
      have := (hg k hk).numbers j.entry (List.mem_map.mpr ⟨j, hj, rfl⟩)
      omega
  · intro y hy
    rcases from' y hy with rfl | ⟨k, hk, j, hj, h⟩
    · trivial
    · have ob := (hg k hk).objects j.entry (List.mem_map.mpr ⟨j, hj, rfl⟩)
      obtain ⟨⟨n, g, kk⟩, d⟩ := j
      cases kk with
      | free x => injection h with h; subst h; trivial
      | used off o =>
        cases o with
        | none => cases h
        | some o => injection h with h; subst h; exact ob
      | compressed a b o => cases h
  · have hgi := (hg i (by simp))
    have hc := hgi.count
    have hlen : i.entries.length = i.plain.entries.length := by simp [ISection.plain]
    obtain ⟨q1, _⟩ := cloneTrailer_spec i.entries.length i.trailer hgi.trailer (by omega)
    rw [h3]
    by_cases hd : ((i :: cur').flatMap ISection.entries).any IEntry.dirty = true
    · rw [if_pos hd]
      have := hoff i rfl
      exact holdable_insert q1 (.int _ (by omega) (by omega)) _
    · rw [if_neg hd]; exact q1
  · intro n g h; rw [h1] at h; cases h

/-- What opening a file gives after an incremental save. -/
theorem open_incremental (c : Codec) (hc : Faithful c) (v : PdfVersion) (ss : List WSection) (file out : Bytes)
    (cur : List ISection) (t : WSection) (hne : ss ≠ []) (hg : GoodDoc ss) (hsave : saveFile c v ss = .ok file)
    (hgc : ∀ i ∈ cur, GoodSection i.plain) (hcount : (cur.flatMap ISection.entries).length < 2147483648)
    (hoff : ∀ i, cur.head? = some i → lastXrefOffset file = .ok i.offset)
    (hdirty : (cur.flatMap ISection.entries).any IEntry.dirty = true)
    (hprev : ∀ i, cur.head? = some i → valueAt (b! "Prev") i.trailer = none)
    (h : saveIncremental c file cur = .ok out) (ht : createIncremental cur = .ok t) (hlen : out.length ≤ 9223372036854775807) :
    GoodSection t ∧
    ∃ x xs, openFile c out = .ok (v, x :: xs) ∧
      InFile c (destResolve [cloneSection t]) out t x ∧ Zip (InFile c (destResolve (ss.map cloneSection).reverse) out) ss xs ∧
      (∀ p, lastXrefOffset file = .ok p → valueAt (b! "Prev") x.2 = some (.int p)) := by
  rw [saveIncremental] at h
  obtain ⟨t', h1, h⟩ := except_bind_ok h
  rw [ht] at h1; injection h1 with h1; subst h1
  obtain ⟨⟨o, off, s'⟩, h2, h⟩ := except_bind_ok h
  injection h with h; subst h
  obtain ⟨more, hmore, hmne⟩ := writeSection_extends h2
  rw [copyContent_eq, List.nil_append] at h2 hmore
  have hlenf : file.length ≤ o.length := by rw [hmore]; simp
  obtain ⟨p, i1, i2, hp, ⟨q, hq, hqo⟩, i3⟩ := saved_inv c hc v ss file hne hg hsave (by omega)
  have hpo : lastXrefOffset file = .ok p := by rw [hqo]; exact C22_roundtrip q p hq (by omega) (by omega)
  obtain ⟨i, cur', hcur, t1, t2, t3⟩ := createIncremental_ok ht
  have hio : i.offset = p := by
    have := hoff i (by rw [hcur]; rfl)
    rw [hpo] at this; injection this with this; exact this.symm
  have hgood : GoodSection t := inc_good ht hgc hcount (by
    intro j hj
    rw [hcur] at hj; injection hj with hj; subst hj
    omega)
  refine ⟨hgood, ?_⟩
  obtain ⟨_, ⟨q2, hq2, hqo2⟩, hoff2, hwr⟩ := writeSection_spec hc hgood.fair (by simp) h2 (by omega) (endsWhite_lf _)
  obtain ⟨x, hx⟩ := hwr []
  rw [List.append_nil] at hx
  obtain ⟨xs, k1, k2⟩ := i3 (b! "\n" ++ more)
  rw [← List.append_assoc, ← hmore] at k1 k2
  have hpe : mapFind (b! "Prev") x.2 = some (.int p) := by
    rw [hx.prevEntry]
    show mapFind (b! "Prev") (dropNullsEntries t.trailer) = _
    rw [dropNullsEntries_value (holdable_dict hgood.trailer).1, t3, if_pos hdirty]
    have hgi := hgc i (by rw [hcur]; simp)
    have hcn := hgi.count
    have hil : i.entries.length = i.plain.entries.length := by simp [ISection.plain]
    obtain ⟨c1, c2⟩ := cloneTrailer_spec i.entries.length i.trailer hgi.trailer (by omega)
    have hno : mapFind (b! "Prev") (cloneTrailer i.entries.length i.trailer) = none := by
      rw [c2 _ (by decide), ← valueAt_eq]; exact hprev i (by rw [hcur]; rfl)
    rw [mapInsert_find (holdable_dict c1).1 hno, if_pos rfl, hio]
    rfl
  refine ⟨x, xs, ?_, ⟨_, _, hx⟩, k2, ?_⟩
  · rw [openFile]
    obtain ⟨r, hr⟩ := saved_header hsave (b! "\n" ++ more)
    rw [← List.append_assoc, ← hmore] at hr
    rw [hr, ok_bind]
    dsimp only
    have h2 := C22_roundtrip q2 off hq2 (by omega) (by omega)
    rw [← hqo2] at h2
    rw [h2, ok_bind]
    have hsec : Sections (SectionAt (openEnv o) (sectionOf c o)) off (x :: xs) :=
      .more _ p _ _ ⟨hx.read, prevOffset_int hpe⟩ k1
    have := k2.length
    have hl1 : 1 ≤ more.length := by cases more with | nil => exact absurd rfl hmne | cons _ _ => simp
    have : o.length = file.length + 1 + more.length := by rw [hmore]; simp; omega
    rw [C24_finite_chain_partial _ _ _ _ hsec _ (by simp; omega)]
    rfl
  · intro p' hp'
    rw [hpo] at hp'; injection hp' with hp'; subst hp'
    rw [valueAt_eq]; exact hpe

/-- **C34**, partial: after an incremental save of a file written by a full save, the appended section has the offset of the
section that was the newest one as its Prev, and opening the output finds all sections.  Missing: files whose newest section
has a Prev already (`C34_prev_counterexample`), saves without a change (`C34_no_change_counterexample`). -/
theorem C34_chained_partial (c : Codec) (hc : Faithful c) (v : PdfVersion) (ss : List WSection) (file out : Bytes)
    (cur : List ISection) (hne : ss ≠ []) (hg : GoodDoc ss) (hsave : saveFile c v ss = .ok file)
    (hgc : ∀ i ∈ cur, GoodSection i.plain) (hcount : (cur.flatMap ISection.entries).length < 2147483648)
    (hoff : ∀ i, cur.head? = some i → lastXrefOffset file = .ok i.offset)
    (hdirty : ∃ e, MarkedIn cur e) (hprev : ∀ i, cur.head? = some i → valueAt (b! "Prev") i.trailer = none)
    (h : saveIncremental c file cur = .ok out) (hlen : out.length ≤ 9223372036854775807) :
    ∃ x xs p, openFile c out = .ok (v, x :: xs) ∧ xs.length = ss.length ∧ lastXrefOffset file = .ok p ∧
      valueAt (b! "Prev") x.2 = some (.int p) := by
  have hd : (cur.flatMap ISection.entries).any IEntry.dirty = true := by
    obtain ⟨e, he, i, hi, hei⟩ := hdirty
    exact List.any_eq_true.mpr ⟨e, List.mem_flatMap.mpr ⟨i, hi, hei⟩, he⟩
  obtain ⟨t, ht⟩ : ∃ t, createIncremental cur = .ok t := by
    rw [saveIncremental] at h
    obtain ⟨t, h1, _⟩ := except_bind_ok h
    exact ⟨t, h1⟩
  obtain ⟨_, x, xs, h1, _, h2, h3⟩ := open_incremental c hc v ss file out cur t hne hg hsave hgc hcount hoff hd hprev h ht hlen
  obtain ⟨i, cur', hcur, _⟩ := createIncremental_ok ht
  have := hoff i (by rw [hcur]; rfl)
  exact ⟨x, xs, i.offset, h1, h2.length.symm, this, h3 _ this⟩

/-- **C34** fails when the newest section of the source has a Prev, that is, when it was saved incrementally before: the
appended section gets the same Prev, for every source and every change. -/
theorem C34_prev_counterexample (cur : List ISection) (i : ISection) (t : WSection) (p : Obj) (hcur : cur.head? = some i)
    (hi : Holdable (.dict i.trailer)) (hcount : i.entries.length ≤ 2147483648)
    (hp : valueAt (b! "Prev") i.trailer = some p) (h : createIncremental cur = .ok t) :
    valueAt (b! "Prev") t.trailer = some p := by
  obtain ⟨j, cur', rfl, t1, t2, t3⟩ := createIncremental_ok h
  injection hcur with hcur; subst hcur
  obtain ⟨c1, c2⟩ := cloneTrailer_spec j.entries.length j.trailer hi (by omega)
  have hf : mapFind (b! "Prev") (cloneTrailer j.entries.length j.trailer) = some p := by
    rw [c2 _ (by decide), ← valueAt_eq]; exact hp
  rw [valueAt_eq, t3]
  by_cases hd : ((j :: cur').flatMap ISection.entries).any IEntry.dirty = true
  · rw [if_pos hd, mapFind_insert (holdable_dict c1).1, if_pos rfl, hf]
  · rw [if_neg hd]; exact hf

/-- **C34** fails when nothing was changed and the newest section has no Prev: the appended section has the head of the free
list as its only entry and no Prev, so that opening the output finds no object at all. -/
theorem C34_no_change_counterexample (cur : List ISection) (i : ISection) (t : WSection) (hcur : cur.head? = some i)
    (hi : Holdable (.dict i.trailer)) (hcount : i.entries.length ≤ 2147483648)
    (hp : valueAt (b! "Prev") i.trailer = none) (hclean : ∀ e, ¬ MarkedIn cur e) (h : createIncremental cur = .ok t) :
    t.entries = [⟨0, 65535, .free 0⟩] ∧ valueAt (b! "Prev") t.trailer = none := by
  obtain ⟨j, cur', rfl, t1, t2, t3⟩ := createIncremental_ok h
  injection hcur with hcur; subst hcur
  have hall : ∀ e ∈ (j :: cur').flatMap ISection.entries, e.dirty = false := by
    intro e he
    obtain ⟨k, hk, hek⟩ := List.mem_flatMap.mp he
    cases hd : e.dirty with
    | false => rfl
    | true => exact absurd ⟨hd, k, hk, hek⟩ (hclean e)
  constructor
  · have key : ∀ (L : List IEntry) (acc : List WEntry), (∀ e ∈ L, e.dirty = false) → L.foldlM incEntry acc = .ok acc := by
      intro L
      induction L with
      | nil => intro acc _; rfl
      | cons e L ih =>
        intro acc hL
        rw [List.foldlM_cons, incEntry, hL e (by simp)]
        exact ih acc fun e he => hL e (by simp [he])
    rw [key _ _ hall] at t2
    injection t2 with t2; exact t2.symm
  · obtain ⟨c1, c2⟩ := cloneTrailer_spec j.entries.length j.trailer hi (by omega)
    have hany : ((j :: cur').flatMap ISection.entries).any IEntry.dirty = false := by
      rw [List.any_eq_false]
      intro e he; rw [hall e he]; simp
    rw [valueAt_eq, t3, hany, if_neg (by simp), c2 _ (by decide), ← valueAt_eq]; exact hp

/-! ### C62 -/

/-- **C62**, partial: after an incremental save of a file written by a full save, every object is read from the output as the
document in memory has it, changed or not.  Missing: objects in object streams, for which the save fails
(`C62_compressed_counterexample`); changes in an older section of an object that a newer section has as well
(`C62_older_counterexample`); files saved incrementally before (`C62_history_counterexample`). -/
theorem C62_changes_saved_partial (c : Codec) (hc : Faithful c) (v : PdfVersion) (ss : List WSection) (file out : Bytes)
    (cur : List ISection) (hne : ss ≠ []) (hg : GoodDoc ss) (hstable : StableLengths ss) (hsave : saveFile c v ss = .ok file)
    (hmod : ModifiedDoc cur ss) (hch : Changes cur ss)
    (hgc : ∀ i ∈ cur, GoodSection i.plain) (hcount : (cur.flatMap ISection.entries).length < 2147483648)
    (hoff : ∀ i, cur.head? = some i → lastXrefOffset file = .ok i.offset)
    (hdirty : ∃ e, MarkedIn cur e) (hprev : ∀ i, cur.head? = some i → valueAt (b! "Prev") i.trailer = none)
    (h : saveIncremental c file cur = .ok out) (hlen : out.length ≤ 9223372036854775807) :
    ∃ xs, openFile c out = .ok (v, xs) ∧
      ∀ n g o, DocHolds (cur.map ISection.plain) n g o → ∀ f, ∃ o', loadObject out xs (f + 2) n g = .ok o' ∧ SameObject o o' := by
  have hd : (cur.flatMap ISection.entries).any IEntry.dirty = true := by
    obtain ⟨e, he, i, hi, hei⟩ := hdirty
    exact List.any_eq_true.mpr ⟨e, List.mem_flatMap.mpr ⟨i, hi, hei⟩, he⟩
  obtain ⟨t, ht⟩ : ∃ t, createIncremental cur = .ok t := by
    rw [saveIncremental] at h
    obtain ⟨t, h1, _⟩ := except_bind_ok h
    exact ⟨t, h1⟩
  obtain ⟨tgood, x, xs, h1, h2, h3, _⟩ :=
    open_incremental c hc v ss file out cur t hne hg hsave hgc hcount hoff hd hprev h ht hlen
  obtain ⟨i, cur', hcur, t1, t2, t3⟩ := createIncremental_ok ht
  refine ⟨x :: xs, h1, fun n g o ho f => ?_⟩
  have hz : Zip (InFileBy c (fun s r => (s = t ∧ r = destResolve [cloneSection t]) ∨
      (s ∈ ss ∧ r = destResolve (ss.map cloneSection).reverse)) out) (t :: ss) (x :: xs) := by
    refine .cons _ _ _ _ ⟨_, Or.inl ⟨rfl, rfl⟩, h2⟩ ?_
    have : ∀ {as : List WSection} {bs : List ReadSection}, (∀ a ∈ as, a ∈ ss) →
        Zip (InFile c (destResolve (ss.map cloneSection).reverse) out) as bs →
        Zip (InFileBy c (fun s r => (s = t ∧ r = destResolve [cloneSection t]) ∨
          (s ∈ ss ∧ r = destResolve (ss.map cloneSection).reverse)) out) as bs := by
      intro as bs hs hz
      induction hz with
      | nil => exact .nil
      | cons a b as bs hab _ ih =>
        exact .cons _ _ _ _ ⟨_, Or.inr ⟨hs a (by simp), rfl⟩, hab⟩ (ih fun a ha => hs a (by simp [ha]))
    exact this (fun _ h => h) h3
  have hgood : ∀ s ∈ t :: ss, GoodSection s := by
    intro s hs
    rcases List.mem_cons.mp hs with rfl | hs
    · exact tgood
    · exact hg.1 s hs
  rcases inc_holds hmod hch hgc t2 t1 ho with hh | ⟨hl, rfl⟩
  · obtain ⟨o', l1, l2, _⟩ := load_holds hz hgood hlen hh (f + 1) fun s e1 e e2 r hr d body e3 hd k m hk j hj => by
      have d3 : ∃ y, DocHolds (t :: ss) k m (.direct y) ∧ (y = .int j ∨ ∃ m p, y = .real m p ∧ m.tdiv (10 ^ p : Nat) = j) := by
        rcases hr with ⟨rfl, rfl⟩ | ⟨hs, rfl⟩
        · obtain ⟨y, y1, y2⟩ := destResolve_holds [s] (by simpa using tgood) k m j hj
          refine ⟨y, ?_, y2⟩
          generalize hy : SObj.direct y = yy at y1 ⊢
          cases y1 with
          | here _ _ e he ho => exact .here _ _ e he ho
          | older _ _ _ _ _ _ h => cases h
        · rw [← List.map_reverse] at hj
          obtain ⟨y, y1, y2⟩ := destResolve_holds ss.reverse (fun s hs => hg.1 s (by simpa using hs)) k m j hj
          have y3 := hstable s hs e e2 d body k m (by rw [e3, hd]) hk _ y1
          obtain ⟨k0, kd⟩ := hch.lengths s hs e e2 d body k m (by rw [e3, hd]) hk
          refine ⟨y, .older _ _ _ _ _ (fun z hz hzn => ?_) y3, y2⟩
          obtain ⟨_, _, r3, _⟩ := incEntries_spec _ t2 (List.pairwise_singleton _ _)
          rcases r3 z hz with h0 | ⟨w, hw, hwd, hwz⟩
          · simp at h0; subst h0; exact k0 hzn.1.symm
          · obtain ⟨u, hu, huw⟩ := List.mem_flatMap.mp hw
            have := kd w ⟨hwd, u, hu, huw⟩
            have := (incOf_num hwz).1
            omega
      obtain ⟨y, d3, d2⟩ := d3
      obtain ⟨o', l1, l2, _⟩ := load_holds hz hgood hlen d3 f (fun _ _ _ _ _ _ d body _ hd => by cases hd)
      rw [loadInt, l1, ok_bind]
      cases l2
      rcases d2 with rfl | ⟨a, b, rfl, rfl⟩ <;> rfl
    exact ⟨o', l1, l2⟩
  · refine ⟨.direct .null, ?_, .direct .null⟩
    rw [loadObject_succ, findRead_lacks hz hl]

/-- **C62** fails for objects in object streams: if one of them was changed, the save fails, for every document. -/
theorem C62_compressed_counterexample (c : Codec) (src : Bytes) (cur : List ISection) (e : IEntry) (a b : Nat) (o : SObj)
    (he : MarkedIn cur e) (hk : e.entry.kind = .compressed a b o) : saveIncremental c src cur = .error .throw := by
  obtain ⟨hd, i, hi, hei⟩ := he
  have key : ∀ (L : List IEntry) (acc : List WEntry), e ∈ L → L.foldlM incEntry acc = .error .throw := by
    intro L
    induction L with
    | nil => intro _ h; cases h
    | cons x L ih =>
      intro acc hL
      rw [List.foldlM_cons]
      rcases List.mem_cons.mp hL with rfl | hL
      · rw [incEntry, hd, hk]; rfl
      · cases hx : incEntry acc x with
        | ok acc' => exact ih acc' hL
        | error f =>
          have : f = .throw := by
            rw [incEntry] at hx
            split at hx
            · cases hx
            · split at hx <;> first | (cases hx; done) | (injection hx with hx; exact hx.symm)
          rw [this]; rfl
  rw [saveIncremental, createIncremental, key _ _ (List.mem_flatMap.mpr ⟨i, hi, hei⟩)]
  rfl

/-- Save incrementally, open the output, and load an object: its text. -/
def reloadIncremental (c : Codec) (src : Bytes) (cur : List ISection) (n g : Nat) : Res Bytes := do
  let out ← saveIncremental c src cur
  let (_, xs) ← openFile c out
  let o ← loadObject out xs 4 n g
  pure (writeBody o)

/-- The table `sampleOld` in memory, after a change of object 1 and the addition of object 4. -/
def sampleCur (off : Int) : ISection :=
  ⟨none, [⟨⟨0, 65535, .free 0⟩, false⟩,
    ⟨⟨1, 0, .used 0 (some (.direct (.dict [(b! "Pages", .ref 4 0), (b! "Type", .name (b! "Catalog"))])))⟩, true⟩,
    ⟨⟨2, 0, .used 0 (some (.stream [(b! "Length", .ref 3 0)] (b! "endstream")))⟩, false⟩,
    ⟨⟨3, 0, .used 0 (some (.direct (.int 9)))⟩, false⟩,
    ⟨⟨4, 0, .used (-1) (some (.stream [] (b! "new")))⟩, true⟩], [(b! "Root", .ref 1 0), (b! "Size", .int 4)], off⟩

/-- The hypotheses of `C62_changes_saved_partial` and `C34_chained_partial` hold of a document with a changed and a new
object. -/
example (off : Int) : ModifiedDoc [sampleCur off] [sampleOld] ∧ Changes [sampleCur off] [sampleOld] ∧
    (∃ e, MarkedIn [sampleCur off] e) ∧ valueAt (b! "Prev") (sampleCur off).trailer = none ∧
    GoodSection (sampleCur off).plain := by
  refine ⟨.cons _ _ _ _ ⟨rfl, ?_, ?_⟩ .nil, ⟨List.pairwise_singleton _ _, ?_, ?_, ?_⟩, ⟨⟨⟨4, 0, .used (-1) (some (.stream [] (b! "new")))⟩, true⟩, rfl, sampleCur off, by simp, ?_⟩, rfl, ?_⟩
  · intro e he hd
    simp only [sampleCur, List.mem_cons, List.not_mem_nil, or_false] at he
    rcases he with rfl | rfl | rfl | rfl | rfl
    · exact ⟨⟨0, 65535, .free 0⟩, by simp [sampleOld], rfl, rfl, rfl⟩
    · cases hd
    · exact ⟨⟨2, 0, .used 0 (some (.stream [(b! "Length", .ref 3 0)] (b! "endstream")))⟩, by simp [sampleOld], rfl, rfl, rfl⟩
    · exact ⟨⟨3, 0, .used 0 (some (.direct (.int 9)))⟩, by simp [sampleOld], rfl, rfl, rfl⟩
    · cases hd
  · intro x hx
    simp only [sampleOld, List.mem_cons, List.not_mem_nil, or_false] at hx
    rcases hx with rfl | rfl | rfl | rfl <;> simp [sampleCur]
  · intro i hi e he h0
    simp only [List.mem_cons, List.not_mem_nil, or_false] at hi
    subst hi
    simp only [sampleCur, List.mem_cons, List.not_mem_nil, or_false] at he
    rcases he with rfl | rfl | rfl | rfl | rfl
    · exact ⟨0, rfl⟩
    all_goals cases h0
  · rintro e o ⟨hd, i, hi, he⟩ hk
    simp only [List.mem_cons, List.not_mem_nil, or_false] at hi
    subst hi
    simp only [sampleCur, List.mem_cons, List.not_mem_nil, or_false] at he
    rcases he with rfl | rfl | rfl | rfl | rfl <;> cases hk
  · intro s hs x hx d body n g h1 h2
    simp only [List.mem_cons, List.not_mem_nil, or_false] at hs
    subst hs
    simp only [sampleOld, List.mem_cons, List.not_mem_nil, or_false] at hx
    rcases hx with rfl | rfl | rfl | rfl <;> cases h1
    cases h2
    refine ⟨by decide, ?_⟩
    rintro e ⟨hd, i, hi, he⟩
    simp only [List.mem_cons, List.not_mem_nil, or_false] at hi
    subst hi
    simp only [sampleCur, List.mem_cons, List.not_mem_nil, or_false] at he
    rcases he with rfl | rfl | rfl | rfl | rfl
    · cases hd
    · decide
    · cases hd
    · cases hd
    · decide
  · simp [sampleCur]
  · refine ⟨?_, ?_, ?_, ?_, ?_, by intro n g h; cases h⟩
    · simp [sampleCur, ISection.plain]
    · simp [sampleCur, ISection.plain]
    · simp [sampleCur, ISection.plain]
    · intro e he
      simp only [sampleCur, ISection.plain, List.map_cons, List.map_nil, List.mem_cons, List.not_mem_nil, or_false] at he
      rcases he with rfl | rfl | rfl | rfl | rfl <;> dsimp only
      · rintro x ⟨⟩
        refine .dict _ (by unfold SortedKeys; decide) ?_
        intro x hx
        simp only [List.mem_cons, List.not_mem_nil, or_false] at hx
        rcases hx with rfl | rfl
        · exact .ref _ _ (by decide) (by decide)
        · exact .name _
      · rintro x ⟨⟩; exact .dict _ (by unfold SortedKeys; decide) (by intro x hx; simp at hx; subst hx; exact .ref _ _ (by decide) (by decide))
      · rintro x ⟨⟩; exact .int _ (by decide) (by decide)
      · rintro x ⟨⟩; exact .dict _ (by unfold SortedKeys; decide) (by simp)
    · exact sampleOld_good.trailer

/-- What that document gives: the changed, the new and an old object. -/
example : (do
      let file ← saveFile plainCodec .v17 [sampleOld]
      let off ← lastXrefOffset file
      let a ← reloadIncremental plainCodec file [sampleCur off] 1 0
      let b ← reloadIncremental plainCodec file [sampleCur off] 4 0
      let d ← reloadIncremental plainCodec file [sampleCur off] 2 0
      pure (a, b, d)) =
    (.ok (b! "<</Pages 4 0 R /Type /Catalog>>", b! "<</Length 3>>\nstream\nnewendstream",
      b! "<</Length 3 0 R>>\nstream\nendstreamendstream") : Res (Bytes × Bytes × Bytes)) := by
  decide +kernel

/-- A document of two sections: object 3 is 4, it was 9. -/
def twoRevisions : List WSection :=
  [⟨none, [⟨0, 65535, .free 0⟩, ⟨3, 0, .used 0 (some (.direct (.int 4)))⟩], [(b! "Root", .ref 1 0)]⟩,
    ⟨none, [⟨0, 65535, .free 0⟩, ⟨1, 0, .used 0 (some (.direct .null))⟩, ⟨3, 0, .used 0 (some (.direct (.int 9)))⟩],
      [(b! "Root", .ref 1 0)]⟩]

/-- The same in memory, opened from a file with the sections at `off` and `prev`; object 1 and the old revision of object 3
as given. -/
def twoRevisionsCur (off prev : Int) (one three : IEntry) : List ISection :=
  [⟨none, [⟨⟨0, 65535, .free 0⟩, false⟩, ⟨⟨3, 0, .used 0 (some (.direct (.int 4)))⟩, false⟩],
      [(b! "Prev", .int prev), (b! "Root", .ref 1 0)], off⟩,
    ⟨none, [⟨⟨0, 65535, .free 0⟩, false⟩, one, three], [(b! "Root", .ref 1 0)], prev⟩]

/-- Save `twoRevisions`, open the file, make the changes, save incrementally and read object 3. -/
def reloadThree (one three : IEntry) : Res Bytes := do
  let file ← saveFile plainCodec .v17 twoRevisions
  let (_, xs) ← openFile plainCodec file
  let off ← lastXrefOffset file
  match xs with
  | [new, _] => do
    let prev ← prevOffset (openEnv file) new.2
    reloadIncremental plainCodec file (twoRevisionsCur off (prev.getD 0) one three) 3 0
  | _ => throw .missing

/-- **C62** fails for a file of two revisions: object 1 is changed, and the new section skips the second revision, so that
object 3, which is 4 and was not touched, is 9 again. -/
theorem C62_history_counterexample :
    reloadThree ⟨⟨1, 0, .used 0 (some (.direct (.bool true)))⟩, true⟩ ⟨⟨3, 0, .used 0 (some (.direct (.int 9)))⟩, false⟩ =
      .ok (b! "9") := by
  decide +kernel

/-- **C62** fails for a change of an entry that a newer section replaces: the change of the old revision of object 3 wins
over the newest one. -/
theorem C62_older_counterexample :
    reloadThree ⟨⟨1, 0, .used 0 (some (.direct .null))⟩, false⟩ ⟨⟨3, 0, .used 0 (some (.direct (.int 100)))⟩, true⟩ =
      .ok (b! "100") := by
  decide +kernel

end VPdf
