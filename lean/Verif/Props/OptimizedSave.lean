import Verif.Lemmas.MergedDoc
import Verif.Props.Dedupe
import Verif.Props.Writer
/-
  C119: a document that is saved in the ordinary way, with all optimisations, and read again.
-/
namespace VPdf
open Spec

/-! ### The file -/

/-- A table that is ready is written and read back, with everything a reader sees from the trailer. -/
theorem ready_read {P : SObj → Prop} (c : Codec) (hc : Faithful c) (v : PdfVersion) {t : WSection} (ht : WriteReady P t) (file : Bytes)
    (h : saveFile c v [t] = .ok file) (hlen : file.length ≤ 9223372036854775807) :
    ∃ x, openFile c file = .ok (v, [x]) ∧ ∀ {α : Type} (view : Obj → α) (k f : Nat),
      ∀ key ∈ [b! "Root", b! "Info", b! "ID", b! "Encrypt"],
        fileShows view (loadObject file [x] (f + 2)) x.2 k key = docShows view [t] k key := by
  have hg : GoodDoc [t] := ⟨fun s hs => by rw [List.mem_singleton.mp hs]; exact ht.goodSection, fun s hs => by
    simp only [List.getLast?_singleton, Option.some.injEq] at hs
    rw [← hs, valueAt_eq]; exact ht.prev⟩
  obtain ⟨xs, h1, h2, h3, h4, h5⟩ := C32_saved_document_partial c hc v [t] file (by simp) hg (fun _ _ _ _ _ _ _ _ _ _ _ ho => ho) h hlen
  match xs, h2 with
  | [x], _ =>
    refine ⟨x, h1, fun view k f key hkey => ?_⟩
    have hb : ∀ k r, fileBehind view (loadObject file [x] (f + 2)) k r = docBehind view [t] k r := by
      intro k
      induction k with
      | zero => intro r; rfl
      | succ k ih =>
        intro r
        rw [fileBehind, docBehind, docObject]
        cases hd : docEntry [t] r with
        | none =>
          have : loadObject file [x] (f + 2) r.1 r.2 = .ok (.direct .null) := by
            refine h4 r.1 r.2 (fun s hs e he hng => ?_) (f + 1)
            exact docEntry_none hd hs he (by rw [hng.1, hng.2])
          rw [this]
          rw [docEntry] at hd
          rw [hd]
          rfl
        | some e =>
          obtain ⟨⟨s, hs, he⟩, hr⟩ := docEntry_mem hd
          rw [List.mem_singleton] at hs
          subst hs
          obtain ⟨o', l1, l2, _⟩ := h3 e.num e.gen _ (.here s [] e he (by rw [ht.own]; simp)) f
          have hst : Storable (entryObject e) := by
            rcases (ht.entries e he).2 with hk | ⟨off, o, hk, ho, _⟩
            · rw [entryObject, hk]; exact .null
            · rw [entryObject, hk]; exact ho
          have e1 : e.num = r.1 := by rw [← hr]
          have e2 : e.gen = r.2 := by rw [← hr]
          rw [e1, e2] at l1
          rw [l1]
          rw [docEntry] at hd
          rw [hd]
          dsimp only
          rw [shownS_same view _ hst l2, funext ih]
    rw [fileShows, docShows, funext (hb k)]
    obtain ⟨d1, d2⟩ := holdable_dict ht.trailer
    rw [← shownAt_dropNulls view _ t.trailer d1 d2 key, shownAt_find, shownAt_find, h5 key hkey t x rfl rfl]

/-! ### The optimisations -/

theorem mapFind_of_entry {d : Dict} (hs : SortedKeys d) {k : Bytes} {o : Obj} (h : (k, o) ∈ d) : mapFind k d = some o := by
  induction d with
  | nil => cases h
  | cons x d ih =>
    have hs' := List.pairwise_cons.mp hs
    obtain ⟨k', o'⟩ := x
    rw [mapFind]
    rcases List.mem_cons.mp h with h | h
    · injection h with h1 h2
      rw [if_pos (by simp [h1]), h2]
    · have hne : k' ≠ k := by
        rintro rfl
        have := hs'.1 _ h
        rw [bytesLt_irrefl] at this
        cases this
      rw [if_neg (by simpa using fun e => hne e.symm)]
      exact ih hs'.2 h

theorem marked_same {α : Type} {view : Obj → α} (hv : ∀ a b, Same a b → view a = view b) : ∀ a b, Same a b → marked view a = marked view b := by
  intro a b h
  rw [marked, marked, hv a b h]
  cases h <;> rfl

/-- What is met from the trailer of the merged section is met from the newest trailer. -/
theorem fromTrailer_doc {P : SObj → Prop} {s0 : WSection} {rest : List WSection} {m : WSection} (hr : WriteReady P m)
    (ho : ∀ r, objectAt m r = docObject (s0 :: rest) r)
    (ht : ∀ q ∈ trailerKeys, q ≠ b! "Prev" → mapFind q m.trailer = mapFind q s0.trailer) {r : Nat × Nat} (h : FromTrailer m r) :
    FromDoc (s0 :: rest) r := by
  induction h with
  | object r q _ h ih => rw [ho] at h; exact .object r q ih h
  | trailer r h =>
    refine .trailer s0 r rfl ?_
    cases h with
    | dict l k o hm hmo =>
      have hf : mapFind k m.trailer = some o := mapFind_of_entry (holdable_dict hr.trailer).1 hm
      by_cases hk : k ∈ trailerKeys
      · have hp : k ≠ b! "Prev" := by
          rintro rfl
          rw [hr.prev] at hf
          cases hf
        rw [ht k hk hp] at hf
        exact .dict _ k o (mapFind_key hf) hmo
      · by_cases hs : k = b! "Size"
        · obtain ⟨i, hi⟩ := hr.size
          rw [← hs, hf] at hi
          injection hi with hi
          rw [hi] at hmo
          cases hmo
        · rw [hr.keys k hk hs] at hf
          cases hf

/-- If no two objects of a section are the same, there is nothing to remove. -/
theorem no_rounds {H : StdHash} {order : WSection → List WEntry} (hord : ∀ s, (order s).Perm s.entries) {s t : WSection}
    (hs : s.entries.Pairwise fun a b => a.num < b.num)
    (hc : ∀ x ∈ s.entries, ∀ y ∈ s.entries, comparableS (sectionObject s x) (sectionObject s y) = true)
    (hn : ∀ x y, ¬Twins s x y) (h : Rounds (codeCmp H) order s t) : t = s := by
  induction h with
  | start => rfl
  | next t t' _ h ih =>
    subst ih
    obtain ⟨dups, hne, hf, _⟩ := removeDupsOnce_some hord h
    have ok := dupsOk_order (c := codeCmp H) hord hs
    rw [hf] at ok
    cases dups with
    | nil => exact absurd rfl hne
    | cons d l =>
      obtain ⟨x, hx, u, hu, hxu, px, pu, _, _, _, hsame⟩ := ok.origin d (by simp)
      refine absurd ⟨⟨hx, (plainUsed_iff x).mp px⟩, ⟨hu, (plainUsed_iff u).mp pu⟩, hxu, ?_⟩ (hn x u)
      rw [objectAt_mem hs hx, objectAt_mem hs hu]
      exact (eqS_right t _ _ (hc x hx u hu)).mp hsame.2

/-! ### C119 -/

/-- **C119**, partial: a document of tables, of any number of sections with objects of any size and number, is saved in the
ordinary way with a licence, and the file is opened.  Then the file has one section, and whoever follows references from the
catalogue, the document information, the identifiers or the encryption dictionary, as deep as they like, sees what was there
before: only the numbers of objects, entries with the value null and the Length of streams may differ.  `m` is the section into
which the document is merged.  Missing: cross-reference streams and object streams; sections that do not agree on whether an
object is free; objects that cannot be compared; references to missing objects; objects below a duplicate that have a duplicate.
See the counterexamples `C119_freed_counterexample`, `C119_number_counterexample`, `C119_dangling_counterexample` and
`C119_twins_counterexample`. -/
theorem C119_saved_partial (c : Codec) (hc : Faithful c) (H : StdHash) (order : WSection → List WEntry)
    (hord : ∀ s, (order s).Perm s.entries) (v : PdfVersion) (ss : List WSection) (file : Bytes) (hd : PlainDoc ss)
    (hcmp : ∀ r q, comparableS (docObject ss r) (docObject ss q) = true)
    (hq : ∀ m, mergeSections (ss.map cloneSection).reverse = [m] → ∀ t, Rounds (codeCmp H) order (removeUnreferenced m) t → QuietTwins t)
    (hn : ∀ r, FromDoc ss r → docObject ss r ≠ .direct .null)
    (h : saveOptimized c (codeCmp H) order v ss = .ok file) (hlen : file.length ≤ 9223372036854775807) :
    ∃ x, openFile c file = .ok (v, [x]) ∧
      ∀ {α : Type} (view : Obj → α), (∀ a b, Same a b → view a = view b) → ∀ (k f : Nat),
        ∀ key ∈ [b! "Root", b! "Info", b! "ID", b! "Encrypt"],
          fileShows view (loadObject file [x] (f + 2)) x.2 k key = docShows view ss k key := by
  match ss, hd.some with
  | s0 :: rest, _ =>
    obtain ⟨m, hm, hr, ho, ht⟩ := merged_ready (P := fun _ => True) trivial hd (fun _ _ _ _ => trivial)
    have htidy : Tidy m := ⟨hr.sorted, fun r h => by rw [hr.own] at h; cases h⟩
    have hready := ready_optimized (fun _ _ _ => trivial) (c := codeCmp H) hord hr
    have hopt : ∀ {β : Type} (view : Obj → β), (∀ a b, Same a b → view a = view b) → ∀ k,
        seen view (squash (removeFreed (removeDups (codeCmp H) order (removeUnreferenced m)))) k = seen view m k := by
      intro β view hv k
      obtain ⟨t, h1, h2, _⟩ := C65_optimize_partial view hv H order hord _ m hm htidy
        (fun r q => by rw [ho, ho]; exact hcmp r q) (hq m hm) (fun r h => by rw [ho]; exact hn r (fromTrailer_doc hr ho ht h))
      rw [optimize, hm] at h1
      injection h1 with h1
      exact (congrArg (seen view · k) h1).trans (h2 k)
    rw [saveOptimized, optimize, hm, List.map_singleton] at h
    generalize squash (removeFreed (removeDups (codeCmp H) order (removeUnreferenced m))) = t at *
    have h' : saveFile c v [t] = .ok file := by rw [hready.save_one]; exact h
    obtain ⟨x, h1, h2⟩ := ready_read c hc v hready file h' hlen
    refine ⟨x, h1, fun view hv k f key hkey => ?_⟩
    rw [h2 view k f key hkey, docShows_one view hready.own, hopt (marked view) (marked_same hv) k, ← docShows_one view hr.own]
    have hb : ∀ k r, docBehind view [m] k r = docBehind view (s0 :: rest) k r := by
      intro k
      induction k with
      | zero => intro r; rfl
      | succ k ih => intro r; rw [docBehind, docBehind, docObject_one hr.own, ho, funext ih]
    rw [docShows, docShows, funext (hb k), shownAt_find, shownAt_find, valueAt_eq, valueAt_eq]
    have hkk : key ∈ trailerKeys ∧ key ≠ b! "Prev" := by
      simp only [List.mem_cons, List.not_mem_nil, or_false] at hkey
      rcases hkey with rfl | rfl | rfl | rfl <;> exact ⟨by decide, by decide⟩
    rw [ht key hkk.1 hkk.2]

/-- **C119**, partial, for documents in which no two objects that are met from the trailer are the same: nothing else is
assumed of the comparison of objects but that they can be compared. -/
theorem C119_distinct_partial (c : Codec) (hc : Faithful c) (H : StdHash) (order : WSection → List WEntry)
    (hord : ∀ s, (order s).Perm s.entries) (v : PdfVersion) (ss : List WSection) (file : Bytes) (hd : PlainDoc ss)
    (hcmp : ∀ r q, comparableS (docObject ss r) (docObject ss q) = true) (hdiff : NoTwins ss)
    (hn : ∀ r, FromDoc ss r → docObject ss r ≠ .direct .null)
    (h : saveOptimized c (codeCmp H) order v ss = .ok file) (hlen : file.length ≤ 9223372036854775807) :
    ∃ x, openFile c file = .ok (v, [x]) ∧
      ∀ {α : Type} (view : Obj → α), (∀ a b, Same a b → view a = view b) → ∀ (k f : Nat),
        ∀ key ∈ [b! "Root", b! "Info", b! "ID", b! "Encrypt"],
          fileShows view (loadObject file [x] (f + 2)) x.2 k key = docShows view ss k key := by
  refine C119_saved_partial c hc H order hord v ss file hd hcmp ?_ hn h hlen
  intro m hm t hrounds
  match ss, hd.some with
  | s0 :: rest, _ =>
    obtain ⟨m', hm', hr, ho, ht⟩ := merged_ready (P := fun _ => True) trivial hd (fun _ _ _ _ => trivial)
    rw [hm] at hm'
    injection hm' with hm'
    subst hm'
    have htidy : Tidy m := ⟨hr.sorted, fun r h => by rw [hr.own] at h; cases h⟩
    have hs1 := removeUnreferenced_sorted hr.sorted
    have hobj : ∀ x ∈ (removeUnreferenced m).entries, sectionObject (removeUnreferenced m) x = docObject (s0 :: rest) (x.num, x.gen) := by
      intro x hx
      rw [← ho, objectAt_mem hr.sorted ((removeUnreferenced_mem m x).mp hx).1]
      rfl
    have hnt : ∀ x y, ¬Twins (removeUnreferenced m) x y := by
      rintro x y ⟨⟨hx, px⟩, ⟨hy, py⟩, hxy, hsame⟩
      have from' : ∀ x ∈ (removeUnreferenced m).entries, OnItsOwn x → FromDoc (s0 :: rest) (x.num, x.gen) := by
        intro x hx px
        have hu := plainUsed_inUse hord ((plainUsed_iff x).mpr px)
        exact fromTrailer_doc hr ho ht ((C37_exactly_reachable m htidy hr.own x ((removeUnreferenced_mem m x).mp hx).1 hu).mp hx)
      rw [objectAt_mem hs1 hx, objectAt_mem hs1 hy, hobj x hx, hobj y hy] at hsame
      exact hdiff _ _ (from' x hx px) (from' y hy py) (fun e => hxy (congrArg Prod.fst e)) hsame
    have := no_rounds hord hs1 (fun x hx y hy => by rw [hobj x hx, hobj y hy]; exact hcmp _ _) hnt hrounds
    subst this
    exact ⟨fun x y h => absurd h (hnt x y), fun r h => by
      have : (removeUnreferenced m).own = none := hr.own
      rw [this] at h; cases h⟩

/-- **C119**: such a document is saved, if the Length of its streams is absent or a number: whatever the order in which the
entries are met, and whatever the comparison of objects says. -/
theorem C119_is_saved (c : Codec) (cmp : Cmp) (order : WSection → List WEntry) (hord : ∀ s, (order s).Perm s.entries)
    (v : PdfVersion) (ss : List WSection) (hd : PlainDoc ss)
    (hlen : ∀ s ∈ ss, ∀ e ∈ s.entries, ∀ d body, entryObject e = .stream d body →
      valueAt (b! "Length") d = none ∨ ∃ i, 0 ≤ i ∧ valueAt (b! "Length") d = some (.int i)) :
    ∃ file, saveOptimized c cmp order v ss = .ok file := by
  match ss, hd.some with
  | s0 :: rest, _ =>
    obtain ⟨m, hm, hr, _, _⟩ := merged_ready (P := fun o => ∀ d body, o = .stream d body →
      valueAt (b! "Length") d = none ∨ ∃ i, 0 ≤ i ∧ valueAt (b! "Length") d = some (.int i)) (fun _ _ h => by cases h) hd hlen
    have hready := ready_optimized (fun f o h d body hd => by
      cases o with
      | direct o => cases hd
      | stream d' body' =>
        rw [mapRefsS] at hd
        injection hd with hd _
        subst hd
        rw [valueAt_eq, mapRefsEntries_find]
        rcases h d' body' rfl with h | ⟨i, hi, h⟩ <;> rw [valueAt_eq] at h <;> rw [h]
        · exact .inl rfl
        · exact .inr ⟨i, hi, rfl⟩) (c := cmp) hord hr
    rw [saveOptimized, optimize, hm, List.map_singleton]
    generalize squash (removeFreed (removeDups cmp order (removeUnreferenced m))) = t at *
    show ∃ file, writeChain c (destResolve [t]) (writeHeader v) none [t] = .ok file
    rw [← hready.save_one]
    refine C32_tables_are_saved c v [t] (fun s hs => ?_) (fun s hs => ?_) (fun s hs => .inl ?_) (fun s hs e he d body hb => ?_) <;>
      rw [List.mem_singleton] at hs <;> subst hs
    · exact hready.goodSection
    · exact hready.own
    · rw [valueAt_eq]; exact hready.prev
    · rcases (hready.entries e he).2 with hk | ⟨off, o, hk, _, hp⟩
      · rw [entryObject, hk] at hb; cases hb
      · rw [entryObject, hk] at hb; exact hp d body hb

/-! ### Examples and counterexamples -/

/-- A document of two revisions: 1 was replaced, 3 is a stream of the newer one, 6 is not referred to, 4 is missing. -/
def revisedDoc : List WSection :=
  [⟨none, [⟨0, 65535, .free 0⟩, ⟨1, 0, .used 0 (some (.direct (.dict [(b! "A", .ref 2 0), (b! "B", .ref 3 0), (b! "C", .null)])))⟩,
      ⟨3, 0, .used 0 (some (.stream [(b! "Length", .int 9)] (b! "abc")))⟩], [(b! "Root", .ref 1 0)]⟩,
    ⟨none, [⟨0, 65535, .free 0⟩, ⟨1, 0, .used 0 (some (.direct (.dict [(b! "A", .ref 2 0)])))⟩,
      ⟨2, 0, .used 0 (some (.direct (.arr [.ref 5 0])))⟩, ⟨5, 0, .used 0 (some (.direct (.name (b! "X"))))⟩,
      ⟨6, 0, .used 0 (some (.direct (.name (b! "Y"))))⟩], [(b! "Root", .ref 1 0)]⟩]

/-- Saving in the ordinary way, and the text of the object that is read under a number. -/
def reopened (ss : List WSection) (n g : Nat) : Res Bytes :=
  match saveOptimized plainCodec (codeCmp gnuHash) inOrder .v17 ss with
  | .error e => .error e
  | .ok file =>
    match openFile plainCodec file with
    | .error e => .error e
    | .ok (_, xs) =>
      match loadObject file xs 5 n g with
      | .error e => .error e
      | .ok o => .ok (writeBody o)

theorem root_only {r : Nat × Nat} {n : Nat} (h : Mentions r (.dict [(b! "Root", .ref n 0)])) : r = (n, 0) := by
  have := (refsOf_iff r _).mpr h
  simpa [refsOf, refsEntries] using this

theorem revisedDoc_plain : PlainDoc revisedDoc := by
  have href : ∀ n : Nat, n ≤ 10 → Holdable (.ref n 0) := fun n h => .ref n 0 (by omega) (by decide)
  have hroot : Holdable (.dict [(b! "Root", .ref 1 0)]) :=
    .dict _ (List.pairwise_singleton _ _) (by intro x hx; simp at hx; subst hx; exact href 1 (by omega))
  refine ⟨by simp [revisedDoc], ?_, by decide, ?_⟩
  · intro s hs
    simp only [revisedDoc, List.mem_cons, List.not_mem_nil, or_false] at hs
    rcases hs with rfl | rfl
    · refine ⟨⟨by simp, by simp, ?_, ?_, hroot, fun n g h => by cases h⟩, rfl⟩
      · intro e he; simp at he; rcases he with rfl | rfl | rfl <;> exact ⟨by decide, by decide⟩
      · intro e he
        simp at he
        rcases he with rfl | rfl | rfl
        · trivial
        · intro x hx
          injection hx with hx; subst hx
          exact .dict _ (by unfold SortedKeys; decide) (by
            intro x hx; simp at hx
            rcases hx with rfl | rfl | rfl
            · exact href 2 (by omega)
            · exact href 3 (by omega)
            · exact .null)
        · intro x hx
          injection hx with hx; subst hx
          exact .dict _ (List.pairwise_singleton _ _) (by intro x hx; simp at hx; subst hx; exact .int _ (by decide) (by decide))
    · refine ⟨⟨by simp, by simp, ?_, ?_, hroot, fun n g h => by cases h⟩, rfl⟩
      · intro e he; simp at he; rcases he with rfl | rfl | rfl | rfl | rfl <;> exact ⟨by decide, by decide⟩
      · intro e he
        simp at he
        rcases he with rfl | rfl | rfl | rfl | rfl
        · trivial
        · intro x hx
          injection hx with hx; subst hx
          exact .dict _ (List.pairwise_singleton _ _) (by intro x hx; simp at hx; subst hx; exact href 2 (by omega))
        · intro x hx
          injection hx with hx; subst hx
          exact .arr _ (by intro x hx; simp at hx; subst hx; exact href 5 (by omega))
        · intro x hx; injection hx with hx; subst hx; exact .name _
        · intro x hx; injection hx with hx; subst hx; exact .name _
  · intro s hs s' hs' e he e' he' hn
    simp only [revisedDoc, List.mem_cons, List.not_mem_nil, or_false] at hs hs'
    rcases hs with rfl | rfl <;> rcases hs' with rfl | rfl <;> simp at he he' <;>
      rcases he with rfl | rfl | rfl | rfl | rfl <;> rcases he' with rfl | rfl | rfl | rfl | rfl <;> simp at hn ⊢

theorem revisedDoc_met {r : Nat × Nat} (h : FromDoc revisedDoc r) : r = (1, 0) ∨ r = (2, 0) ∨ r = (3, 0) ∨ r = (5, 0) := by
  induction h with
  | trailer s r hs h =>
    injection hs with hs
    subst hs
    exact .inl (root_only h)
  | object r q _ h ih =>
    have := (refsS_iff q _).mpr h
    rcases ih with rfl | rfl | rfl | rfl
    · simp [docObject, revisedDoc, entryObject, refsS, refsOf, refsEntries] at this
      rcases this with rfl | rfl <;> simp
    · simp [docObject, revisedDoc, entryObject, refsS, refsOf, refsItems] at this; simp [this]
    · simp [docObject, revisedDoc, entryObject, refsS, refsOf, refsEntries] at this
    · simp [docObject, revisedDoc, entryObject, refsS, refsOf] at this

theorem revisedDoc_comparable (r q : Nat × Nat) : comparableS (docObject revisedDoc r) (docObject revisedDoc q) = true := by
  obtain ⟨m, hm, hr, ho, _⟩ := merged_ready (P := fun _ => True) trivial (show PlainDoc (_ :: _) from revisedDoc_plain) (fun _ _ _ _ => trivial)
  have hc : ∀ m, mergeSections (revisedDoc.map cloneSection).reverse = [m] → comparableCheck m = true := by
    intro m hm
    have : (mergeSections (revisedDoc.map cloneSection).reverse).map comparableCheck = [true] := by decide +kernel
    rw [hm] at this
    injection this
  have := comparable_of_check (hc m hm) hr.sorted r q
  rw [ho, ho] at this
  exact this

theorem revisedDoc_distinct : NoTwins revisedDoc := by
  intro r q hr hq hne
  rcases revisedDoc_met hr with rfl | rfl | rfl | rfl <;> rcases revisedDoc_met hq with rfl | rfl | rfl | rfl <;>
    first
      | exact absurd rfl hne
      | (intro h; cases h; done)
      | (intro h; cases h with | direct _ _ h => cases h)

theorem revisedDoc_whole (r : Nat × Nat) (h : FromDoc revisedDoc r) : docObject revisedDoc r ≠ .direct .null := by
  rcases revisedDoc_met h with rfl | rfl | rfl | rfl <;> simp [docObject, revisedDoc, entryObject]

/-- The hypotheses are met, the document is saved, and the objects are read with new numbers. -/
example : PlainDoc revisedDoc ∧ (∀ r q, comparableS (docObject revisedDoc r) (docObject revisedDoc q) = true) ∧ NoTwins revisedDoc ∧
    (∀ r, FromDoc revisedDoc r → docObject revisedDoc r ≠ .direct .null) ∧
    (∃ file, saveOptimized plainCodec (codeCmp gnuHash) inOrder .v17 revisedDoc = .ok file) ∧
    reopened revisedDoc 1 0 = .ok (b! "<</A 2 0 R /B 3 0 R>>") ∧ reopened revisedDoc 2 0 = .ok (b! "[4 0 R]") ∧
    reopened revisedDoc 3 0 = .ok (b! "<</Length 3>>\nstream\nabcendstream") ∧ reopened revisedDoc 4 0 = .ok (b! "/X") := by
  refine ⟨revisedDoc_plain, revisedDoc_comparable, revisedDoc_distinct, revisedDoc_whole, ?_, ?_, ?_, ?_, ?_⟩
  · refine C119_is_saved plainCodec _ inOrder (fun s => List.Perm.refl _) .v17 revisedDoc revisedDoc_plain ?_
    intro s hs e he d body hb
    simp only [revisedDoc, List.mem_cons, List.not_mem_nil, or_false] at hs
    rcases hs with rfl | rfl <;> simp at he
    · rcases he with rfl | rfl | rfl
      · cases hb
      · cases hb
      · injection hb with hb _; subst hb; exact .inr ⟨9, by decide, rfl⟩
    · rcases he with rfl | rfl | rfl | rfl | rfl <;> cases hb
  all_goals decide +kernel

/-- The other hypothesis of `C119_saved_partial` is met where there are duplicates: in the merged section 2 and 3 are the same, and
only 5 is below them. -/
example : ∀ m, mergeSections (twoRevisionChain.reverse.map cloneSection).reverse = [m] →
    ∀ t, Rounds (codeCmp gnuHash) inOrder (removeUnreferenced m) t → QuietTwins t := by
  intro m hm t ht
  have hord : ∀ s, (inOrder s).Perm s.entries := fun s => List.Perm.refl _
  have hsorted : m.entries.Pairwise fun a b => a.num < b.num :=
    (C36_nothing_else _ m (by rw [hm]; simp)).1
  have hs := removeUnreferenced_sorted hsorted
  have check : ∀ f : WSection → Bool, (mergeSections (twoRevisionChain.reverse.map cloneSection).reverse).all f = true → f m = true := by
    intro f hf
    rw [hm] at hf
    simpa using hf
  have c1 := check (fun m => quietCheck (removeUnreferenced m) fun _ => [(5, 0)]) (by decide +kernel)
  have c2 := check (fun m => ((removeDupsOnce (codeCmp gnuHash) inOrder (removeUnreferenced m)).bind (removeDupsOnce (codeCmp gnuHash) inOrder)).isNone)
    (by decide +kernel)
  have c3 := check (fun m => match removeDupsOnce (codeCmp gnuHash) inOrder (removeUnreferenced m) with
    | some u => quietCheck u fun _ => [(5, 0)] | none => false) (by decide +kernel)
  cases h1 : removeDupsOnce (codeCmp gnuHash) inOrder (removeUnreferenced m) with
  | none => rw [h1] at c3; cases c3
  | some u =>
    rw [h1] at c2 c3
    rcases rounds_two h1 (Option.isNone_iff_eq_none.mp c2) ht with rfl | rfl
    · exact quiet_of_check _ c1 hs
    · exact quiet_of_check _ c3 (removeDupsOnce_sorted hord hs h1)

/-- **C119** fails for an object that the newest section frees: object 2 is null, and the number 7 in the saved file. -/
theorem C119_freed_counterexample :
    let ss : List WSection := [⟨none, [⟨0, 65535, .free 2⟩, ⟨2, 0, .free 0⟩], [(b! "Root", .ref 1 0)]⟩,
      smallSection 1 [(1, .dict [(b! "A", .ref 2 0)]), (2, .int 7)]]
    docObject ss (1, 0) = .direct (.dict [(b! "A", .ref 2 0)]) ∧ docObject ss (2, 0) = .direct .null ∧
    reopened ss 1 0 = .ok (b! "<</A 2 0 R>>") ∧ reopened ss 2 0 = .ok (b! "7") :=
  ⟨rfl, rfl, by decide +kernel, by decide +kernel⟩

/-- **C119** fails for a reference to a missing object: the root is an array with null, and in the saved file an array with
itself. -/
theorem C119_dangling_counterexample :
    let ss : List WSection := [smallSection 2 [(2, .arr [.ref 1 0])]]
    docObject ss (2, 0) = .direct (.arr [.ref 1 0]) ∧ docObject ss (1, 0) = .direct .null ∧ reopened ss 1 0 = .ok (b! "[1 0 R]") :=
  ⟨rfl, rfl, by decide +kernel⟩

/-- **C119** fails for duplicates below duplicates: the second item of the root is the array [6 0 R], and null in the saved
file. -/
theorem C119_twins_counterexample :
    let ss : List WSection := [smallSection 9 [(5, .name (b! "X")), (6, .name (b! "X")), (7, .arr [.ref 6 0]), (8, .arr [.ref 6 0]),
      (9, .arr [.ref 7 0, .ref 8 0, .ref 5 0])]]
    docObject ss (9, 0) = .direct (.arr [.ref 7 0, .ref 8 0, .ref 5 0]) ∧ docObject ss (8, 0) = .direct (.arr [.ref 6 0]) ∧
    reopened ss 3 0 = .ok (b! "[2 0 R 8 0 R 1 0 R]") ∧ reopened ss 8 0 = .ok (b! "null") :=
  ⟨rfl, rfl, by decide +kernel, by decide +kernel⟩

/-- **C119** fails for objects that cannot be compared: the second item of the root is the array [0 0], and [0.5 0.5] in the
saved file. -/
theorem C119_number_counterexample :
    let ss : List WSection := [smallSection 1 [(1, .arr [.ref 2 0, .ref 3 0]), (2, .arr [.real 5 1, .real 5 1]), (3, .arr [.int 0, .int 0])]]
    docObject ss (1, 0) = .direct (.arr [.ref 2 0, .ref 3 0]) ∧ docObject ss (3, 0) = .direct (.arr [.int 0, .int 0]) ∧
    reopened ss 1 0 = .ok (b! "[2 0 R 2 0 R]") ∧ reopened ss 2 0 = .ok (b! "[0.5 0.5]") :=
  ⟨rfl, rfl, by decide +kernel, by decide +kernel⟩

end VPdf
