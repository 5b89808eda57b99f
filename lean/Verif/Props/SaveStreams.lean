import Verif.Lemmas.LoadSaved
/-
  C32 and C63 for documents with objects in object streams.
-/
namespace VPdf
open Spec

section
variable {c : Codec}

theorem filled_mem {s t : WSection} (h : Filled c s t) {e : WEntry} (he : e ∈ s.entries) :
    ∃ e' ∈ t.entries, FilledBy c s.entries (· ∈ usedStreams s.entries) e e' := h.entries.left e he

/-- The entries of objects in object streams are the same. -/
theorem filled_compressed {s t : WSection} (h : Filled c s t) {e : WEntry} (he : e ∈ t.entries) {sn i : Nat} {o : SObj}
    (hk : e.kind = .compressed sn i o) : e ∈ s.entries ∧ sn ∈ usedStreams s.entries := by
  obtain ⟨e0, he0, hf⟩ := h.entries.right e he
  by_cases hp : e0.num ∈ usedStreams s.entries ∧ e0.gen = 0
  · obtain ⟨_, _, _, _, _, _, rfl⟩ := hf.2 hp
    cases hk
  · have := hf.1 hp
    subst this
    exact ⟨he0, (mem_usedStreams _ _).mpr ⟨e, he0, i, o, hk⟩⟩

theorem filled_members {s t : WSection} (h : Filled c s t) (sn : Nat) : objStmMembers sn t.entries = objStmMembers sn s.entries := by
  have key : ∀ {es l m : List WEntry} {P : Nat → Prop}, Zip (FilledBy c es P) l m → objStmMembers sn m = objStmMembers sn l := by
    intro es l m P hz
    induction hz with
    | nil => rfl
    | cons a b l m hf _ ih =>
      rw [objStmMembers, objStmMembers, ih]
      by_cases hp : P a.num ∧ a.gen = 0
      · obtain ⟨off, d, b', o, k1, k2, rfl⟩ := hf.2 hp
        rw [k1]
      · rw [hf.1 hp]
  exact key h.entries

/-- The header of a filled object stream. -/
theorem makeObjStm_header {d d' : Dict} {l : List (Nat × SObj)} {body : Bytes} (hd : Holdable (.dict d))
    (h : makeObjStm c d l = .ok (.stream d' body)) (hl : l.length ≤ 9223372036854775806)
    (hb : (objStmBody (l.map fun x => (x.1, writeBody x.2))).length ≤ 9223372036854775807) :
    Holdable (.dict d') ∧ valueAt (b! "Length") d' = valueAt (b! "Length") d := by
  unfold makeObjStm at h
  dsimp only at h
  obtain ⟨body', _, h⟩ := except_bind_ok h
  injection h with h; injection h with h _
  subst h
  have hh : (objStmHeader 0 (l.map fun x => (x.1, writeBody x.2))).length + 1 ≤
      (objStmBody (l.map fun x => (x.1, writeBody x.2))).length := by
    unfold objStmBody; simp only [List.length_append]; show _ ≤ _ + 1 + _; omega
  have hN : Holdable (.int l.length) := .int _ (by omega) (by omega)
  have hF : Holdable (.int ((objStmHeader 0 (l.map fun x => (x.1, writeBody x.2))).length + 1)) := .int _ (by omega) (by omega)
  have g1 := holdable_insert (holdable_erase hd (b! "N")) hN (b! "N")
  have g2 := holdable_insert (holdable_erase g1 (b! "First")) hF (b! "First")
  refine ⟨g2, ?_⟩
  rw [valueAt_eq, valueAt_eq, replace_find (holdable_dict g1).1, if_neg (by decide), replace_find (holdable_dict hd).1,
    if_neg (by decide)]

theorem members_small {s : WSection} (fair : FairSection s) (sn : Nat)
    (ht : ∀ e ∈ s.entries, ∀ sn i o, e.kind = .compressed sn i o → (writeBody o).length ≤ 2147483648) :
    (((objStmMembers sn s.entries).map (·.2)).map fun x => (x.1, writeBody x.2)).length ≤ 2147483648 ∧
    (objStmBody (((objStmMembers sn s.entries).map (·.2)).map fun x => (x.1, writeBody x.2))).length ≤ 9223372036854775807 := by
  have hl : (((objStmMembers sn s.entries).map (·.2)).map fun x => (x.1, writeBody x.2)).length ≤ 2147483648 := by
    have h1 := objStmMembers_length sn s.entries
    have h3 := fair.count
    simp only [List.length_map]
    omega
  refine ⟨hl, objStmBody_length _ hl fun x hx => ?_⟩
  obtain ⟨x', hx', rfl⟩ := List.mem_map.mp hx
  obtain ⟨⟨i, n, o⟩, hz, rfl⟩ := List.mem_map.mp hx'
  obtain ⟨e', he', hn', hk'⟩ := (objStmMembers_mem _ _ _ _ _).mp hz
  exact ⟨by rw [← hn']; exact (fair.numbers e' he').1, ht e' he' _ _ _ hk'⟩

/-- What a filled object stream is. -/
theorem filled_stream {s : WSection} (fair : FairSection s)
    (ht : ∀ e ∈ s.entries, ∀ sn i o, e.kind = .compressed sn i o → (writeBody o).length ≤ 2147483648) {e e' : WEntry}
    (he : e ∈ s.entries) (hf : FilledBy c s.entries (· ∈ usedStreams s.entries) e e')
    (hp : e.num ∈ usedStreams s.entries ∧ e.gen = 0) :
    ∃ off d b d' b', e.kind = .used off (some (.stream d b)) ∧ e' = { e with kind := .used off (some (.stream d' b')) } ∧
      makeObjStm c d ((objStmMembers e.num s.entries).map (·.2)) = .ok (.stream d' b') ∧ Holdable (.dict d) ∧ Holdable (.dict d') ∧
      valueAt (b! "Length") d' = valueAt (b! "Length") d := by
  obtain ⟨off, d, b, o, k1, k2, rfl⟩ := hf.2 hp
  obtain ⟨d', b', rfl⟩ := makeObjStm_stream k2
  have ob := fair.objects e he
  rw [k1] at ob
  have hd : Holdable (.dict d) := ob _ rfl
  obtain ⟨l1, l2⟩ := members_small fair e.num ht
  obtain ⟨q1, q2⟩ := makeObjStm_header hd k2 (by simp only [List.length_map] at l1 ⊢; omega) l2
  exact ⟨off, d, b, d', b', k1, rfl, k2, hd, q1, q2⟩

theorem filled_fair {s t : WSection} (h : Filled c s t) (fair : FairSection s)
    (ht : ∀ e ∈ s.entries, ∀ sn i o, e.kind = .compressed sn i o → (writeBody o).length ≤ 2147483648)
    (hown : ∀ sn ∈ usedStreams s.entries, s.own ≠ some (sn, 0)) : FairSection t := by
  have hnum : t.entries.map (fun e => (e.num, e.gen)) = s.entries.map fun e => (e.num, e.gen) :=
    h.entries.map_eq fun a b hf => by rw [hf.num.1, hf.num.2]
  constructor
  · have : (t.entries.map (fun e => (e.num, e.gen))).Pairwise (fun a b => a.1 < b.1) := by
      rw [hnum, List.pairwise_map]; exact fair.sorted
    rw [List.pairwise_map] at this; exact this
  · rw [← h.entries.length]; exact fair.count
  · intro e he
    obtain ⟨e0, he0, hf⟩ := h.entries.right e he
    rw [hf.num.1, hf.num.2]
    exact fair.numbers e0 he0
  · intro e he
    obtain ⟨e0, he0, hf⟩ := h.entries.right e he
    by_cases hp : e0.num ∈ usedStreams s.entries ∧ e0.gen = 0
    · obtain ⟨off, d, b, d', b', _, rfl, _, _, q, _⟩ := filled_stream fair ht he0 hf hp
      intro x hx; injection hx with hx; subst hx; exact q
    · rw [hf.1 hp, h.own]; exact fair.objects e0 he0
  · rw [h.trailer]; exact fair.trailer
  · intro n g hn
    rw [h.own] at hn
    obtain ⟨q1, q2, ⟨z, hz, hz0⟩, q4, q5⟩ := fair.own n g hn
    refine ⟨q1, q2, ?_, by rw [h.trailer]; exact q4, fun off o he => ?_⟩
    · obtain ⟨z', hz', hf⟩ := filled_mem h hz
      exact ⟨z', hz', by rw [hf.num.1]; exact hz0⟩
    · obtain ⟨e0, he0, hf⟩ := h.entries.right _ he
      have hnn := hf.num
      dsimp only at hnn
      have hp : ¬ (e0.num ∈ usedStreams s.entries ∧ e0.gen = 0) := by
        rintro ⟨p1, p2⟩
        refine hown _ p1 ?_
        rw [hn, hnn.1, hnn.2, p2]
      rw [← hf.1 hp] at he0
      exact q5 off o he0

theorem zip_head {α β : Type} {R : α → β → Prop} {l : List α} {m : List β} (h : Zip R l m) {t : β} (ht : m.head? = some t) :
    ∃ s, l.head? = some s ∧ R s t := by
  cases h with
  | nil => cases ht
  | cons a b l m hab _ => injection ht with ht; subst ht; exact ⟨a, rfl, hab⟩

theorem zip_last {α β : Type} {R : α → β → Prop} {l : List α} {m : List β} (h : Zip R l m) {t : β} (ht : m.getLast? = some t) :
    ∃ s, l.getLast? = some s ∧ R s t := by
  rw [← List.head?_reverse] at ht ⊢
  exact zip_head h.reverse ht

/-- An object before and after the object streams have been filled. -/
def FilledObject (o o' : SObj) : Prop := o' = o ∨ ∃ d b d' b', o = .stream d b ∧ o' = .stream d' b'

theorem filledObject_of {es : List WEntry} {P : Nat → Prop} {e e' : WEntry} (hf : FilledBy c es P e e') :
    FilledObject (entryObject e) (entryObject e') := by
  by_cases hp : P e.num ∧ e.gen = 0
  · obtain ⟨off, d, b, o, k1, k2, rfl⟩ := hf.2 hp
    obtain ⟨d', b', rfl⟩ := makeObjStm_stream k2
    exact .inr ⟨d, b, d', b', by unfold entryObject; rw [k1], rfl⟩
  · exact .inl (by rw [hf.1 hp])

theorem holds_filled {ss ts : List WSection} (hz : Zip (Filled c) ss ts) {n g : Nat} {o : SObj} (h : DocHolds ss n g o) :
    ∃ o', DocHolds ts n g o' ∧ FilledObject o o' ∧ (¬ (g = 0 ∧ ObjectStream ss n) → o' = o) := by
  induction h generalizing ts with
  | here s ss e he hown =>
    cases hz with
    | cons _ t _ ts hf hz =>
      obtain ⟨e', he', hfe⟩ := filled_mem hf he
      obtain ⟨n1, n2⟩ := hfe.num
      have := DocHolds.here t ts e' he' (by rw [hf.own, n1, n2]; exact hown)
      rw [n1, n2] at this
      refine ⟨_, this, filledObject_of hfe, fun hno => ?_⟩
      rw [hfe.1]
      rintro ⟨p1, p2⟩
      obtain ⟨e1, h1, i, o, hk⟩ := (mem_usedStreams _ _).mp p1
      exact hno ⟨p2, s, by simp, e1, h1, i, o, hk⟩
  | older s ss n g o hno _ ih =>
    cases hz with
    | cons _ t _ ts hf hz =>
      obtain ⟨o', k1, k2, k3⟩ := ih hz
      refine ⟨o', .older t ts n g o' (fun e' he' q => ?_) k1, k2, fun hn => k3 fun q => hn ⟨q.1, ?_⟩⟩
      · obtain ⟨e, he, hfe⟩ := hf.entries.right e' he'
        exact hno e he (by rw [← hfe.num.1, ← hfe.num.2]; exact q)
      · obtain ⟨s', hs', q⟩ := q.2
        exact ⟨s', by simp [hs'], q⟩

theorem filled_holds {ss ts : List WSection} (hz : Zip (Filled c) ss ts) {n g : Nat} {o' : SObj} (h : DocHolds ts n g o') :
    ∃ o, DocHolds ss n g o ∧ FilledObject o o' := by
  induction h generalizing ss with
  | here t ts e' he' hown =>
    cases hz with
    | cons s _ ss _ hf hz =>
      obtain ⟨e, he, hfe⟩ := hf.entries.right e' he'
      obtain ⟨n1, n2⟩ := hfe.num
      rw [n1, n2]
      rw [n1, n2, hf.own] at hown
      exact ⟨_, .here s ss e he hown, filledObject_of hfe⟩
  | older t ts n g o hno _ ih =>
    cases hz with
    | cons s _ ss _ hf hz =>
      obtain ⟨o, k1, k2⟩ := ih hz
      refine ⟨o, .older s ss n g o (fun e he q => ?_) k1, k2⟩
      obtain ⟨e', he', hfe⟩ := filled_mem hf he
      exact hno e' he' (by rw [hfe.num.1, hfe.num.2]; exact q)

/-- A saved document with object streams, as the lemmas on loading need it. -/
theorem saved_document (hc : Faithful c) (v : PdfVersion) (ss : List WSection) (file : Bytes) (hne : ss ≠ []) (hg : FairDoc ss)
    (hh : Housed ss) (hs : StableLengths ss) (h : saveDocument c v ss = .ok file) (hlen : file.length ≤ 9223372036854775807) :
    ∃ ts xs r, Zip (Filled c) ss ts ∧ openFile c file = .ok (v, xs) ∧ SavedDoc c r file ts xs := by
  have texts : ∀ s ∈ ss, ∀ e ∈ s.entries, ∀ sn i o, e.kind = .compressed sn i o → (writeBody o).length ≤ 2147483648 := by
    intro s hs e he sn i o hk
    obtain ⟨a, b, rfl⟩ := List.append_of_mem hs
    exact (hh.object a s b rfl e he sn i o hk).2.2
  obtain ⟨ts, hz, hsave⟩ := saveDocument_spec (fun s hs => (hg.1 s hs).sorted)
    (fun s hs ho => by
      cases hu : usedStreams s.entries with
      | nil => rfl
      | cons sn l =>
        obtain ⟨e, he, i, o, hk⟩ := (mem_usedStreams s.entries sn).mp (by rw [hu]; simp)
        have := (hg.1 s hs).objects e he
        rw [hk] at this
        exact absurd ho this.1)
    (fun a s b he sn hsn s' hs' e' he' => by
      obtain ⟨e, hee, i, o, hk⟩ := (mem_usedStreams s.entries sn).mp hsn
      exact (hh.stream a s b he e hee sn i o hk).2 s' hs' e' he') h
  have fair : ∀ t ∈ ts, FairSection t := by
    intro t ht
    obtain ⟨s, hs, hf⟩ := hz.right t ht
    refine filled_fair hf (hg.1 s hs) (texts s hs) fun sn hsn => ?_
    obtain ⟨e, he, i, o, hk⟩ := (mem_usedStreams s.entries sn).mp hsn
    obtain ⟨a, b, rfl⟩ := List.append_of_mem hs
    exact (hh.stream a s b rfl e he sn i o hk).1
  have hne' : ts ≠ [] := by
    rintro rfl; have := hz.length; simp at this; exact hne this
  obtain ⟨xs, h1, h2⟩ := open_saved_fair c hc v ts file hne' ⟨fair, fun t ht => by
    obtain ⟨s, hs, hf⟩ := zip_last hz ht
    rw [hf.trailer]; exact hg.2 s hs⟩ hsave hlen
  have notown : ∀ t ∈ ts, ∀ e ∈ t.entries, ∀ st j o, e.kind = .compressed st j o → t.own ≠ some (e.num, e.gen) := by
    intro t ht e he st j o hk
    obtain ⟨s, hs, hf⟩ := hz.right t ht
    obtain ⟨he', _⟩ := filled_compressed hf he hk
    obtain ⟨a, b, rfl⟩ := List.append_of_mem hs
    rw [hf.own]
    exact (hh.object a s b rfl e he' st j o hk).1
  have source : ∀ t ∈ ts, ∀ e' ∈ t.entries, ∀ d' body' k m, entryObject e' = .stream d' body' →
      valueAt (b! "Length") d' = some (.ref k m) → ∃ s ∈ ss, ∃ e ∈ s.entries, ∃ d body, entryObject e = .stream d body ∧
        valueAt (b! "Length") d = some (.ref k m) := by
    intro t ht e' he' d' body' k m hd' hkm
    obtain ⟨s, hss, hf⟩ := hz.right t ht
    obtain ⟨e, he, hfe⟩ := hf.entries.right e' he'
    by_cases hp : e.num ∈ usedStreams s.entries ∧ e.gen = 0
    · obtain ⟨off, d, b, d1, b1, k1, k2, _, _, _, k6⟩ := filled_stream (hg.1 s hss) (texts s hss) he hfe hp
      rw [k2] at hd'
      injection hd' with q1 q2
      subst q1
      exact ⟨s, hss, e, he, d, b, by unfold entryObject; rw [k1], by rw [← k6]; exact hkm⟩
    · rw [hfe.1 hp] at hd'
      exact ⟨s, hss, e, he, d', body', hd', hkm⟩
  have outside : ∀ t ∈ ts, ∀ e' ∈ t.entries, ∀ d' body' k m, entryObject e' = .stream d' body' →
      valueAt (b! "Length") d' = some (.ref k m) → ∀ t' ∈ ts, ∀ z ∈ t'.entries, z.num = k → z.gen = m →
      ∀ sn i o, z.kind ≠ .compressed sn i o := by
    intro t ht e' he' d' body' k m hd' hkm t' ht' z hz' zn zg zs zi zo hzk
    obtain ⟨s, hss, e, he, d, body, l1, l2⟩ := source t ht e' he' d' body' k m hd' hkm
    obtain ⟨s', hs', hf'⟩ := hz.right t' ht'
    obtain ⟨hz0, _⟩ := filled_compressed hf' hz' hzk
    exact hh.length s hss e he d body k m l1 l2 s' hs' z hz0 zn zg zs zi zo hzk
  refine ⟨ts, xs, _, hz, h1, h2, fair, hlen, ?_, outside, ?_, ?_⟩
  · intro t ht e' he' d' body' k m i hd' hkm hi
    rw [← List.map_reverse] at hi
    obtain ⟨x, x1, x2⟩ := destResolve_fair ts.reverse (fun s hs => fair s (by simpa using hs))
      (fun s hs => notown s (by simpa using hs)) k m i hi
    obtain ⟨o, o1, o2⟩ := filled_holds hz.reverse x1
    have : o = .direct x := by
      rcases o2 with o2 | ⟨_, _, _, _, _, q⟩
      · exact o2.symm
      · cases q
    subst this
    obtain ⟨s, hss, e, he, d, body, l1, l2⟩ := source t ht e' he' d' body' k m hd' hkm
    have := hs s hss e he d body k m l1 l2 _ o1
    obtain ⟨o', p1, p2, _⟩ := holds_filled hz this
    have : o' = .direct x := by
      rcases p2 with p2 | ⟨_, _, _, _, q, _⟩
      · exact p2
      · cases q
    subst this
    exact ⟨x, p1, x2⟩
  · intro t ht e he sn i o hk
    obtain ⟨at', bt, rfl⟩ := List.append_of_mem ht
    obtain ⟨a, s, b, rfl, za, hf, zb⟩ := hz.split rfl
    obtain ⟨he', hsn⟩ := filled_compressed hf he hk
    obtain ⟨h0, hh0, hn0, hg0⟩ := hf.there sn hsn
    obtain ⟨h', hh', hfh⟩ := filled_mem hf hh0
    have hss : s ∈ a ++ s :: b := by simp
    obtain ⟨off, d, b0, d1, b1, k1, k2, k3, k4, _, k6⟩ :=
      filled_stream (hg.1 s hss) (texts s hss) hh0 hfh ⟨by rw [hn0]; exact hsn, hg0⟩
    obtain ⟨q1, q2⟩ := hh.stream a s b rfl e he' sn i o hk
    have hnum := hfh.num
    refine ⟨h', off, d, d1, b1, ⟨at', bt, rfl, hh', by rw [hnum.1]; exact hn0, by rw [hnum.2]; exact hg0, ?_⟩, by rw [hf.own]; exact q1,
      by rw [k2], k4, by rw [filled_members hf, ← hn0]; exact k3, ?_⟩
    · intro t' ht' z hz'
      obtain ⟨s', hs', hf'⟩ := za.right t' ht'
      obtain ⟨z0, hz0, hfz⟩ := hf'.entries.right z hz'
      rw [hfz.num.1, hfz.num.2]
      exact q2 s' (by simp [hs']) z0 hz0
    · intro k m hkm
      exact outside _ ht h' hh' d1 b1 k m (by unfold entryObject; rw [k2]) hkm
  · intro t ht e he sn i o hk
    obtain ⟨at', bt, rfl⟩ := List.append_of_mem ht
    obtain ⟨a, s, b, rfl, za, hf, zb⟩ := hz.split rfl
    obtain ⟨he', hsn⟩ := filled_compressed hf he hk
    obtain ⟨q1, q2, q3⟩ := hh.object a s b rfl e he' sn i o hk
    have hss : s ∈ a ++ s :: b := by simp
    have ob := (hg.1 s hss).objects e he'
    rw [hk] at ob
    have hge := ob.2.1
    refine ⟨⟨at', bt, rfl, he, rfl, hge, ?_⟩, by rw [hf.own]; exact q1, q3⟩
    intro t' ht' z hz'
    obtain ⟨s', hs', hf'⟩ := za.right t' ht'
    obtain ⟨z0, hz0, hfz⟩ := hf'.entries.right z hz'
    rw [hfz.num.1, hfz.num.2, ← hge]
    exact q2 s' hs' z0 hz0
end

/-- **C32**, partial, for documents with objects in object streams (`Housed`): when the document has been saved, opening the
output gives the version and as many sections, and whatever objects have been loaded before, in any order and with or without
success, loading an object of the document gives the same object: the same direct object, wherever it is stored, or a stream
with the same header and the same body, whose Length is the size of the body.  Objects without an entry are null.  The
catalogue is found.  `f + 4` is the number of loads that may be nested.  The object streams themselves are left out, the
writer replaces their bodies.
Missing: object streams with entries in several sections, objects that a newer section replaces, and streams whose Length is
in an object stream, for which it fails (`C32_shared_stream_counterexample`, `C63_stale_object_counterexample`,
`C32_packed_length_counterexample`), and what is missing in `C32_saved_document_partial`.  The entry the writer leaves for a
cross-reference stream has the offset it had before; `hown` says that no stream with a reference as its Length happens to be
there under the same number. -/
theorem C32_object_streams_partial (c : Codec) (hc : Faithful c) (v : PdfVersion) (ss : List WSection) (file : Bytes)
    (hne : ss ≠ []) (hg : FairDoc ss) (hh : Housed ss) (hs : StableLengths ss) (h : saveDocument c v ss = .ok file)
    (hlen : file.length ≤ 9223372036854775807) (hown : ∀ xs, openFile c file = .ok (v, xs) → OwnLengths c file ss xs) :
    ∃ xs, openFile c file = .ok (v, xs) ∧ xs.length = ss.length ∧
      (∀ n g o, DocHolds ss n g o → ¬ (g = 0 ∧ ObjectStream ss n) → ∀ f f' before, ∃ o',
        (fetch c file xs (f + 4) (fetchAll c file xs f' {} before) n g).obj = .ok o' ∧ SameObject o o' ∧
        ∀ d body, o' = .stream d body → ∃ lo, valueAt (b! "Length") d = some lo ∧
          asInt (fileEnv file (resolveIn c file xs (f + 3) {})) lo = .ok body.length) ∧
      (∀ n g, DocLacks ss n g → ∀ f f' before, (fetch c file xs (f + 1) (fetchAll c file xs f' {} before) n g).obj = .ok (.direct .null)) ∧
      (∀ k ∈ [b! "Root", b! "Info", b! "ID", b! "Encrypt"], ∀ s x, ss.head? = some s → xs.head? = some x →
        valueAt k x.2 = valueAt k (dropNullsEntries s.trailer)) := by
  obtain ⟨ts, xs, r, hz, h1, sd⟩ := saved_document hc v ss file hne hg hh hs h hlen
  have cons := sd.consistent hc
  have plain := sd.plain hc fun t ht n g ho => by
    obtain ⟨s, hs, hf⟩ := hz.right t ht
    exact hown xs h1 s hs n g (by rw [← hf.own]; exact ho)
  refine ⟨xs, h1, by rw [← sd.zip.length, hz.length], fun n g o ho hno f f' before => ?_, fun n g hl f f' before => ?_, ?_⟩
  · obtain ⟨o', k1, _, k3⟩ := holds_filled hz ho
    rw [k3 hno] at k1
    obtain ⟨o'', q1, q2, q3⟩ := sd.load hc k1 f
    obtain ⟨k, inv⟩ := fetchAll_inv cons plain f' before 0 {} loadInv_empty
    obtain ⟨_, sees⟩ := fetch_sees cons plain (f + 4) k
    exact ⟨o'', (sees.2 _ inv n g).2.2 o'' q1, q2, q3⟩
  · have hlt : DocLacks ts n g := by
      intro t ht e' he' q
      obtain ⟨s, hs, hf⟩ := hz.right t ht
      obtain ⟨e, he, hfe⟩ := hf.entries.right e' he'
      exact hl s hs e he (by rw [← hfe.num.1, ← hfe.num.2]; exact q)
    have h2' : Zip (InFileBy c (fun _ q => q = r) file) ts xs := sd.zip.imp fun s x hx => ⟨_, rfl, hx⟩
    rw [fetch_none (findRead_lacks h2' hlt)]
  · intro k hk s x hss hx
    have hz2 := sd.zip
    cases hz with
    | nil => cases hss
    | cons s0 t ss ts hf _ =>
      cases hz2 with
      | cons _ x' _ xs hw _ =>
        injection hss with hss; injection hx with hx
        subst hss; subst hx
        obtain ⟨off, prev, w⟩ := hw
        rw [valueAt_eq, valueAt_eq, ← hf.trailer]
        exact w.trailer k hk

/-- Without objects in object streams `saveDocument` is `saveFile`, of which `C32_saved_document_partial` speaks. -/
theorem C32_without_object_streams (c : Codec) (v : PdfVersion) (ss : List WSection)
    (h : ∀ s ∈ ss, ∀ e ∈ s.entries, ∀ sn i o, e.kind ≠ .compressed sn i o) : saveDocument c v ss = saveFile c v ss := by
  have none : ∀ s ∈ (ss.map cloneSection).reverse, usedStreams s.entries = [] := by
    intro s hs
    obtain ⟨s', hs', rfl⟩ := List.mem_map.mp (List.mem_reverse.mp hs)
    show usedStreams (s'.entries.map cloneEntry) = []
    rw [usedStreams_clone]
    cases hu : usedStreams s'.entries with
    | nil => rfl
    | cons sn l =>
      obtain ⟨e, he, i, o, hk⟩ := (mem_usedStreams s'.entries sn).mp (by rw [hu]; simp)
      exact absurd hk (h s' hs' e he sn i o)
  have key : ∀ (todo done : List WSection) (out : Bytes) (prev : Option Int), (∀ s ∈ todo, usedStreams s.entries = []) →
      saveChain c todo.length done.length out prev (done ++ todo) = writeChain c (destResolve (done ++ todo)) out prev todo := by
    intro todo
    induction todo with
    | nil => intro done out prev _; rfl
    | cons s todo ih =>
      intro done out prev hn
      rw [List.length_cons, saveChain]
      have hget : (done ++ s :: todo)[done.length]? = some s := by
        rw [List.getElem?_append_right (Nat.le_refl _)]; simp
      have hfill : fillSection c s (done ++ s :: todo) = .ok (done ++ s :: todo) := by
        rw [fillSection]
        cases s.own with
        | none => rfl
        | some p => dsimp only; rw [hn s (by simp)]; rfl
      rw [hget]
      dsimp only
      rw [hfill, ok_bind, hget]
      dsimp only
      rw [writeChain]
      cases hw : writeSection c (destResolve (done ++ s :: todo)) out prev s with
      | error e => rfl
      | ok w =>
        obtain ⟨o1, off, s1⟩ := w
        rw [ok_bind, ok_bind]
        have := ih (done ++ [s]) o1 (some off) (fun t ht => hn t (by simp [ht]))
        simpa using this
  have := key (ss.map cloneSection).reverse [] (writeHeader v) Option.none none
  rw [saveDocument, saveFile]
  simpa using this

/-- A section whose catalogue and object 3 are in the object stream 5.  The body of the object stream is not up to date. -/
def packedRev : WSection :=
  ⟨some (6, 0), [⟨0, 65535, .free 0⟩, ⟨1, 0, .compressed 5 0 (.direct (.dict [(b! "Type", .name (b! "Catalog"))]))⟩,
    ⟨2, 0, .used 0 (some (.stream [(b! "Length", .ref 4 0)] (b! "endstream")))⟩, ⟨3, 0, .compressed 5 1 (.direct (.int 9))⟩,
    ⟨4, 0, .used 0 (some (.direct (.int 9)))⟩,
    ⟨5, 0, .used 0 (some (.stream [(b! "Type", .name (b! "ObjStm"))] (b! "old")))⟩, ⟨6, 0, .used 0 (some (.stream [] []))⟩],
    [(b! "Root", .ref 1 0), (b! "Size", .int 7), (b! "Type", .name (b! "XRef"))]⟩

/-- The text of an object of a saved and opened document, after other objects have been loaded. -/
def reloadAfter (ss : List WSection) (before : List (Nat × Nat)) (n g : Nat) : Res Bytes := do
  let file ← saveDocument plainCodec .v17 ss
  let (_, xs) ← openFile plainCodec file
  let o ← (fetch plainCodec file xs 5 (fetchAll plainCodec file xs 5 {} before) n g).obj
  pure (writeBody o)

theorem packedRev_fair : FairSection packedRev := by
  refine ⟨by decide, by decide, by decide, ?_, ?_, ?_⟩
  · intro e he
    simp only [packedRev, List.mem_cons, List.not_mem_nil, or_false] at he
    rcases he with rfl | rfl | rfl | rfl | rfl | rfl | rfl <;> dsimp only
    · exact ⟨by decide, rfl, by decide, by decide, _, rfl,
        .dict _ (by unfold SortedKeys; decide) (by intro x hx; simp at hx; subst hx; exact .name _)⟩
    · rintro x ⟨⟩; exact .dict _ (by unfold SortedKeys; decide) (by intro x hx; simp at hx; subst hx; exact .ref _ _ (by decide) (by decide))
    · exact ⟨by decide, rfl, by decide, by decide, _, rfl, .int _ (by decide) (by decide)⟩
    · rintro x ⟨⟩; exact .int _ (by decide) (by decide)
    · rintro x ⟨⟩; exact .dict _ (by unfold SortedKeys; decide) (by intro x hx; simp at hx; subst hx; exact .name _)
    · rintro x ⟨⟩; exact .dict _ (by unfold SortedKeys; decide) (by simp)
  · refine .dict _ (by unfold SortedKeys; decide) ?_
    intro x hx
    simp only [packedRev, List.mem_cons, List.not_mem_nil, or_false] at hx
    rcases hx with rfl | rfl | rfl
    · exact .ref _ _ (by decide) (by decide)
    · exact .int _ (by decide) (by decide)
    · exact .name _
  · intro n g h
    injection h with h; injection h with h1 h2
    subst h1; subst h2
    refine ⟨by decide, by decide, ⟨⟨0, 65535, .free 0⟩, by simp [packedRev], rfl⟩, Or.inl (by rfl), ?_⟩
    intro off o he
    simp only [packedRev, List.mem_cons, List.not_mem_nil, or_false] at he
    rcases he with h | h | h | h | h | h | h <;> cases h
    exact ⟨by decide, fun x hx => by cases hx⟩

theorem addingRev_fair : FairSection addingRev := by
  refine ⟨by decide, by decide, by decide, ?_, ?_, ?_⟩
  · intro e he
    simp only [addingRev, List.mem_cons, List.not_mem_nil, or_false] at he
    rcases he with rfl | rfl | rfl <;> dsimp only
    · rintro x ⟨⟩; exact .dict _ (by unfold SortedKeys; decide) (by simp)
    · rintro x ⟨⟩; exact .int _ (by decide) (by decide)
  · refine .dict _ (by unfold SortedKeys; decide) ?_
    intro x hx
    simp only [addingRev, List.mem_cons, List.not_mem_nil, or_false] at hx
    rcases hx with rfl | rfl | rfl
    · exact .ref _ _ (by decide) (by decide)
    · exact .int _ (by decide) (by decide)
    · exact .name _
  · intro n g h
    injection h with h; injection h with h1 h2
    subst h1; subst h2
    refine ⟨by decide, by decide, ⟨⟨0, 65535, .free 0⟩, by simp [addingRev], rfl⟩, Or.inl (by rfl), ?_⟩
    intro off o he
    simp only [addingRev, List.mem_cons, List.not_mem_nil, or_false] at he
    rcases he with h | h | h <;> cases h
    exact ⟨by decide, fun x hx => by cases hx⟩

theorem packed_compressed {a b : List WSection} {s : WSection} (h : [addingRev, packedRev] = a ++ s :: b) {e : WEntry} (he : e ∈ s.entries)
    {sn i : Nat} {o : SObj} (hk : e.kind = .compressed sn i o) : a = [addingRev] ∧ s = packedRev ∧ b = [] ∧ sn = 5 ∧
      (e = ⟨1, 0, .compressed 5 0 (.direct (.dict [(b! "Type", .name (b! "Catalog"))]))⟩ ∨ e = ⟨3, 0, .compressed 5 1 (.direct (.int 9))⟩) := by
  rcases a with _ | ⟨x, _ | ⟨y, a⟩⟩
  · injection h with h1 h2
    subst h1
    simp only [addingRev, List.mem_cons, List.not_mem_nil, or_false] at he
    rcases he with rfl | rfl | rfl <;> cases hk
  · injection h with h1 h2; injection h2 with h2 h3
    subst h1; subst h2
    simp only [packedRev, List.mem_cons, List.not_mem_nil, or_false] at he
    rcases he with rfl | rfl | rfl | rfl | rfl | rfl | rfl <;> cases hk
    · exact ⟨rfl, rfl, h3.symm, rfl, .inl rfl⟩
    · exact ⟨rfl, rfl, h3.symm, rfl, .inr rfl⟩
  · injection h with h1 h2; injection h2 with h2 h3
    simp at h3

/-- Whether `OwnLengths` holds because another object is where the entry of a cross-reference stream points. -/
def checkOwn (c : Codec) (v : PdfVersion) (ss : List WSection) : Bool :=
  match saveDocument c v ss with
  | .error _ => false
  | .ok file =>
    match openFile c file with
    | .error _ => false
    | .ok (_, xs) => ss.all fun s =>
      match s.own with
      | none => true
      | some (n, g) =>
        match findRead xs n g with
        | some ⟨_, _, .used off⟩ =>
          match expectSkip parserKeywords .integer (file.drop off.toNat) with
          | .ok (t, _) => decide (stoll t.value ≠ .ok (n : Int))
          | .error _ => true
        | _ => true

theorem own_of_check {c : Codec} {v : PdfVersion} {ss : List WSection} (h : checkOwn c v ss = true) {file : Bytes}
    (hs : saveDocument c v ss = .ok file) {xs : List ReadSection} (ho : openFile c file = .ok (v, xs)) : OwnLengths c file ss xs := by
  unfold checkOwn at h
  rw [hs] at h
  dsimp only at h
  rw [ho] at h
  dsimp only at h
  rintro s hs n g hown ⟨a, b, kind⟩ off hf rfl d data k m ⟨f, tn, tg, r, h1, h2, _⟩
  have := List.all_eq_true.mp h s hs
  rw [hown] at this
  dsimp only at this
  rw [hf] at this
  dsimp only at this
  obtain ⟨_, _, _, _, _, _, _, _, _, _, q, _⟩ := streamHead_parts h1
  rw [q] at this
  exact absurd h2 (by simpa using this)

/-- The hypotheses of `C32_object_streams_partial` hold of two sections, the older one with an object stream whose body is
filled when the document is saved. -/
example : FairDoc [addingRev, packedRev] ∧ Housed [addingRev, packedRev] ∧ StableLengths [addingRev, packedRev] ∧
    (∃ file, saveDocument plainCodec .v17 [addingRev, packedRev] = .ok file ∧ file.length ≤ 1000 ∧
      ∀ xs, openFile plainCodec file = .ok (.v17, xs) → OwnLengths plainCodec file [addingRev, packedRev] xs) ∧
    Faithful plainCodec ∧ DocHolds [addingRev, packedRev] 2 0 (.stream [(b! "Length", .ref 4 0)] (b! "endstream")) ∧
    ObjectStream [addingRev, packedRev] 5 ∧
    reloadAfter [addingRev, packedRev] [(3, 0), (2, 0)] 1 0 = .ok (b! "<</Type /Catalog>>") ∧
    reloadAfter [addingRev, packedRev] [] 2 0 = .ok (b! "<</Length 4 0 R>>\nstream\nendstreamendstream") ∧
    reloadAfter [addingRev, packedRev] [] 5 0 =
      .ok (b! "<</First 9 /Length 29 /N 2 /Type /ObjStm>>\nstream\n1 0 3 19 <</Type /Catalog>> 9endstream") := by
  refine ⟨⟨?_, ?_⟩, ⟨?_, ?_, ?_⟩, ?_, ?_, ?_, ?_, ?_, by decide +kernel, by decide +kernel, by decide +kernel⟩
  · intro s hs
    simp only [List.mem_cons, List.not_mem_nil, or_false] at hs
    rcases hs with rfl | rfl
    · exact addingRev_fair
    · exact packedRev_fair
  · intro s hs; cases hs; rfl
  · intro a s b h e he sn i o hk
    obtain ⟨rfl, rfl, rfl, rfl, _⟩ := packed_compressed h he hk
    exact ⟨by decide, by decide⟩
  · intro a s b h e he sn i o hk
    obtain ⟨rfl, rfl, rfl, rfl, he' | he'⟩ := packed_compressed h he hk <;> subst he' <;> cases hk <;>
      exact ⟨by decide, by decide, by decide⟩
  · intro s hs h hh d body k m h1 h2 s' hs' e he hk hm sn i o hkind
    obtain ⟨a, b, hab⟩ := List.append_of_mem hs'
    obtain ⟨_, _, _, _, he'⟩ := packed_compressed hab he hkind
    have hkk : k = 4 := by
      simp only [List.mem_cons, List.not_mem_nil, or_false] at hs
      rcases hs with rfl | rfl
      · simp only [addingRev, List.mem_cons, List.not_mem_nil, or_false] at hh
        rcases hh with rfl | rfl | rfl <;> cases h1
        cases h2
      · simp only [packedRev, List.mem_cons, List.not_mem_nil, or_false] at hh
        rcases hh with rfl | rfl | rfl | rfl | rfl | rfl | rfl <;> cases h1 <;> cases h2
        rfl
    rcases he' with rfl | rfl <;> dsimp only at hk <;> omega
  · intro s hs e he d body n g h1 h2 o h3
    have hno : ∀ e ∈ addingRev.entries, ¬ (e.num = 4 ∧ e.gen = 0) := by decide
    have hng : n = 4 ∧ g = 0 := by
      simp only [List.mem_cons, List.not_mem_nil, or_false] at hs
      rcases hs with rfl | rfl
      · simp only [addingRev, List.mem_cons, List.not_mem_nil, or_false] at he
        rcases he with rfl | rfl | rfl <;> cases h1
        cases h2
      · simp only [packedRev, List.mem_cons, List.not_mem_nil, or_false] at he
        rcases he with rfl | rfl | rfl | rfl | rfl | rfl | rfl <;> cases h1 <;> cases h2
        exact ⟨rfl, rfl⟩
    obtain ⟨rfl, rfl⟩ := hng
    refine .older _ _ _ _ _ hno ?_
    rw [show [addingRev, packedRev].reverse = [packedRev, addingRev] from rfl] at h3
    generalize hn : (4 : Nat) = n at h3
    generalize hg : (0 : Nat) = g at h3
    cases h3 with
    | here _ _ e he hown => exact .here _ _ e he hown
    | older _ _ _ _ _ hn' h =>
      subst hn; subst hg
      exact absurd ⟨rfl, rfl⟩ (hn' ⟨4, 0, .used 0 (some (.direct (.int 9)))⟩ (by simp [packedRev]))
  · cases hs : saveDocument plainCodec .v17 [addingRev, packedRev] with
    | error e => 
      have h : checkOwn plainCodec .v17 [addingRev, packedRev] = true := by decide +kernel
      unfold checkOwn at h
      rw [hs] at h; cases h
    | ok file =>
      refine ⟨file, rfl, ?_, fun xs ho => own_of_check (by decide +kernel) hs ho⟩
      have : (saveDocument plainCodec .v17 [addingRev, packedRev]).toOption.all (fun f => decide (f.length ≤ 1000)) = true := by
        decide +kernel
      rw [hs] at this
      simpa [Except.toOption] using this
  · intro d d' b x h _
    injection h with h; subst h; rfl
  · refine .older _ _ _ _ _ (by decide) ?_
    exact .here _ _ ⟨2, 0, .used 0 (some (.stream [(b! "Length", .ref 4 0)] (b! "endstream")))⟩ (by simp [packedRev]) (by decide)
  · exact ⟨packedRev, by simp, ⟨3, 0, .compressed 5 1 (.direct (.int 9))⟩, by simp [packedRev], 1, _, rfl⟩

/-- **C32** fails for an object stream that a newer section replaces: in memory object 1 is 11; its object stream, number 5, is
in both sections, and the newer one still has the text of the source file in which object 1 was 10.  The writer fills the
object stream of the older section, which is already written, and object 1 of the saved file is 10. -/
theorem C32_shared_stream_counterexample :
    let stm : SObj := .stream [(b! "First", .int 4), (b! "N", .int 1), (b! "Type", .name (b! "ObjStm"))] (b! "1 0 10")
    let ss : List WSection := [⟨some (7, 0), [⟨0, 65535, .free 0⟩, ⟨1, 0, .compressed 5 0 (.direct (.int 11))⟩, ⟨5, 0, .used 0 (some stm)⟩,
        ⟨7, 0, .used 0 (some (.stream [] []))⟩], [(b! "Root", .ref 1 0), (b! "Size", .int 8), (b! "Type", .name (b! "XRef"))]⟩,
      ⟨some (6, 0), [⟨0, 65535, .free 0⟩, ⟨1, 0, .compressed 5 0 (.direct (.int 10))⟩, ⟨5, 0, .used 0 (some stm)⟩,
        ⟨6, 0, .used 0 (some (.stream [] []))⟩], [(b! "Root", .ref 1 0), (b! "Size", .int 7), (b! "Type", .name (b! "XRef"))]⟩]
    DocHolds ss 1 0 (.direct (.int 11)) ∧ reloadAfter ss [] 1 0 = .ok (b! "10") := by
  refine ⟨?_, by decide +kernel⟩
  exact .here _ _ ⟨1, 0, .compressed 5 0 (.direct (.int 11))⟩ (by simp) (by decide)

/-- **C32** fails for a stream whose Length is in an object stream: when it is the first object that is loaded from the saved
file, the last byte of its body is missing. -/
theorem C32_packed_length_counterexample :
    let ss : List WSection := [⟨some (6, 0), [⟨0, 65535, .free 0⟩, ⟨1, 0, .compressed 5 0 (.direct (.dict []))⟩,
      ⟨2, 0, .used 0 (some (.stream [(b! "Length", .ref 3 0)] (b! "ten bytes\n")))⟩, ⟨3, 0, .compressed 5 1 (.direct (.int 10))⟩,
      ⟨5, 0, .used 0 (some (.stream [(b! "Type", .name (b! "ObjStm"))] []))⟩, ⟨6, 0, .used 0 (some (.stream [] []))⟩],
      [(b! "Root", .ref 1 0), (b! "Size", .int 7), (b! "Type", .name (b! "XRef"))]⟩]
    DocHolds ss 2 0 (.stream [(b! "Length", .ref 3 0)] (b! "ten bytes\n")) ∧
    reloadAfter ss [] 2 0 = .ok (b! "<</Length 3 0 R>>\nstream\nten bytesendstream") ∧
    reloadAfter ss [(3, 0)] 2 0 = .ok (b! "<</Length 3 0 R>>\nstream\nten bytes\nendstream") ∧
    reloadAfter ss [(2, 0)] 3 0 = .ok (b! "9") := by
  refine ⟨?_, by decide +kernel, by decide +kernel, by decide +kernel⟩
  exact .here _ _ ⟨2, 0, .used 0 (some (.stream [(b! "Length", .ref 3 0)] (b! "ten bytes\n")))⟩ (by simp) (by decide)

end VPdf
