import Verif.Spec.ReadAs
import Verif.Lemmas.EncryptedData
import Verif.Lemmas.PageEdit

/-! Lemmas on saving streams and removing encryption. -/
namespace VPdf
open Spec (Lawful ReadAs ItemsReadAs EntriesReadAs)

section Objects

variable {k : Crypto} {F : SecureFile} {n g : Nat} {r : Bytes}

mutual

theorem forceObj_saved (iv : Bytes) : ∀ {o o' : SecObj}, forceObj k F n g r o = .ok o' →
    ∃ w, savedObj k { F with dict := none } n g r iv o' = .ok w ∧ ReadAs k F n g r o w
  | .other o, o', h => by
    cases Except.ok.inj h
    exact ⟨o, rfl, .other o⟩
  | .str s, o', h => by
    unfold forceObj at h
    obtain ⟨v, hv, h⟩ := except_bind_ok h
    cases Except.ok.inj h
    refine ⟨if s.hex then .hex v else .lit v, ?_, ?_⟩
    · simp [savedObj, SecString.getValue, stringWrite, SecureFile.isEncrypted, bind, Except.bind, pure, Except.pure]
    · have hv : Spec.StringReads k F n g r s v := by
        unfold SecString.getValue at hv
        cases hs : s.value with
        | some x => rw [hs] at hv; cases hv; exact .inl hs
        | none => rw [hs] at hv; exact .inr ⟨hs, hv⟩
      cases hx : s.hex with
      | false => exact .lit hx hv
      | true => exact .hex hx hv
  | .arr items, o', h => by
    unfold forceObj at h
    obtain ⟨xs, hx, h⟩ := except_bind_ok h
    cases Except.ok.inj h
    obtain ⟨ws, h1, h2⟩ := forceItems_saved iv hx
    refine ⟨.arr ws, ?_, .arr h2⟩
    rw [savedObj, h1]
    rfl
  | .dict entries, o', h => by
    unfold forceObj at h
    obtain ⟨xs, hx, h⟩ := except_bind_ok h
    cases Except.ok.inj h
    obtain ⟨ws, h1, h2⟩ := forceEntries_saved iv hx
    refine ⟨.dict ws, ?_, .dict h2⟩
    rw [savedObj, h1]
    rfl

theorem forceItems_saved (iv : Bytes) : ∀ {os os' : List SecObj}, forceItems k F n g r os = .ok os' →
    ∃ ws, savedItems k { F with dict := none } n g r iv os' = .ok ws ∧ ItemsReadAs k F n g r os ws
  | [], os', h => by
    cases Except.ok.inj h
    exact ⟨[], rfl, .nil⟩
  | o :: os, os', h => by
    unfold forceItems at h
    obtain ⟨x, hx, h⟩ := except_bind_ok h
    obtain ⟨xs, hxs, h⟩ := except_bind_ok h
    cases Except.ok.inj h
    obtain ⟨w, h1, h2⟩ := forceObj_saved iv hx
    obtain ⟨ws, h3, h4⟩ := forceItems_saved iv hxs
    refine ⟨w :: ws, ?_, .cons h2 h4⟩
    rw [savedItems, h1, ok_bind, h3]
    rfl

theorem forceEntries_saved (iv : Bytes) : ∀ {es es' : List (Bytes × SecObj)}, forceEntries k F n g r es = .ok es' →
    ∃ d, savedEntries k { F with dict := none } n g r iv es' = .ok d ∧ EntriesReadAs k F n g r es d
  | [], es', h => by
    cases Except.ok.inj h
    exact ⟨[], rfl, .nil⟩
  | (key, o) :: es, es', h => by
    unfold forceEntries at h
    obtain ⟨x, hx, h⟩ := except_bind_ok h
    obtain ⟨xs, hxs, h⟩ := except_bind_ok h
    cases Except.ok.inj h
    obtain ⟨w, h1, h2⟩ := forceObj_saved iv hx
    obtain ⟨ws, h3, h4⟩ := forceEntries_saved iv hxs
    refine ⟨(key, w) :: ws, ?_, .cons h2 h4⟩
    rw [savedEntries, h1, ok_bind, h3]
    rfl

end

end Objects

theorem forceSection_get {m : Overflow} {c : Codecs} {k : Crypto} {F : SecureFile} {rnd : Bytes} :
    ∀ {es es' : List SecEntry}, forceSection m c k F rnd es = .ok es' → ∀ j : Nat,
      (es[j]? = none → es'[j]? = none) ∧
      ∀ (n g : Nat) (o : Option SecTop), es[j]? = some (SecEntry.mk n g o) → match o with
        | none => es'[j]? = some (SecEntry.mk n g none)
        | some t => ∃ t', forceTop m c k F n g rnd t = .ok t' ∧ es'[j]? = some (SecEntry.mk n g (some t'))
  | [], es', h, j => by
    cases Except.ok.inj h
    exact ⟨fun h => h, nofun⟩
  | e :: es, es', h, j => by
    unfold forceSection at h
    obtain ⟨o1, h1, h⟩ := except_bind_ok h
    obtain ⟨es1, h2, h⟩ := except_bind_ok h
    cases Except.ok.inj h
    cases j with
    | zero =>
      refine ⟨nofun, ?_⟩
      intro n g o ho
      cases Option.some.inj ho
      cases o with
      | none => cases Except.ok.inj h1; rfl
      | some t =>
        obtain ⟨t', ht, h1⟩ := except_bind_ok h1
        cases Except.ok.inj h1
        exact ⟨t', ht, rfl⟩
    | succ j => exact forceSection_get h2 j

theorem forceSections_get {m : Overflow} {c : Codecs} {k : Crypto} {F : SecureFile} {rnd : Bytes} :
    ∀ {ss ss' : List SecSection}, forceSections m c k F rnd ss = .ok ss' → ∀ i : Nat,
      (ss[i]? = none → ss'[i]? = none) ∧
      ∀ s : SecSection, ss[i]? = some s → ∃ es, forceSection m c k F rnd s.entries = .ok es ∧ ss'[i]? = some { s with entries := es }
  | [], ss', h, i => by
    cases Except.ok.inj h
    exact ⟨fun h => h, nofun⟩
  | s :: ss, ss', h, i => by
    unfold forceSections at h
    obtain ⟨es, h1, h⟩ := except_bind_ok h
    obtain ⟨ss1, h2, h⟩ := except_bind_ok h
    cases Except.ok.inj h
    cases i with
    | zero =>
      refine ⟨nofun, ?_⟩
      intro s' hs
      cases Option.some.inj hs
      exact ⟨es, h1, rfl⟩
    | succ i => exact forceSections_get h2 i

/-- What is done to each object. -/
theorem removed_at {m : Overflow} {c : Codecs} {k : Crypto} {rnd : Bytes} {doc doc' : SecDoc}
    (he : doc.file.isEncrypted = true) (h : removeEncryption m c k rnd doc = .ok doc') {i j n g : Nat} {t : SecTop}
    (ht : doc.at i j = some ⟨n, g, some t⟩) :
    ∃ t', forceTop m c k doc.file n g rnd t = .ok t' ∧ doc'.at i j = some ⟨n, g, some t'⟩ := by
  unfold removeEncryption at h
  rw [he, if_neg (by simp)] at h
  obtain ⟨ss, h1, h⟩ := except_bind_ok h
  unfold SecDoc.at at ht
  cases hs : doc.sections[i]? with
  | none => rw [hs] at ht; cases ht
  | some s =>
    rw [hs] at ht
    obtain ⟨es, h2, h3⟩ := (forceSections_get h1 i).2 s hs
    obtain ⟨t', h4, h5⟩ := (forceSection_get h2 j).2 n g (some t) ht
    refine ⟨t', h4, ?_⟩
    cases ss with
    | nil => cases h
    | cons s0 ss =>
      cases Except.ok.inj h
      unfold SecDoc.at
      cases i with
      | zero =>
        cases Option.some.inj h3
        exact h5
      | succ i =>
        have h3 : ss[i]? = some { s with entries := es } := h3
        show (ss[i]?).bind (·.entries[j]?) = _
        rw [h3]
        exact h5

theorem removed_doc {m : Overflow} {c : Codecs} {k : Crypto} {rnd : Bytes} {doc doc' : SecDoc}
    (he : doc.file.isEncrypted = true) (h : removeEncryption m c k rnd doc = .ok doc') :
    doc'.file = { doc.file with dict := none } ∧ doc'.encryptionDirty = true := by
  unfold removeEncryption at h
  rw [he, if_neg (by simp)] at h
  obtain ⟨ss, _, h⟩ := except_bind_ok h
  cases ss with
  | nil => cases h
  | cons s0 ss => cases Except.ok.inj h; exact ⟨rfl, rfl⟩

theorem forceStream_spec {m : Overflow} {c : Codecs} {k : Crypto} {F : SecureFile} {s s' : StreamState} {n g : Nat} {rnd body : Bytes}
    (hb : bodyDecrypted k F s n g rnd = .ok body) (hdec : ∀ b, s.decoded = some b → s.decrypted.isSome)
    (h : forceStream m c k F s n g rnd = .ok s') :
    s'.decrypted = some body ∧ s'.filter = s.filter ∧ s'.dirty = s.dirty ∧ s'.exempt = s.exempt ∧
      ∀ G, streamBody m c k G s' n g rnd = streamBody m c k F s n g rnd := by
  unfold forceStream at h
  cases hd : s.decoded with
  | some b =>
    rw [hd] at h
    cases Except.ok.inj h
    have := hdec b hd
    cases hx : s.decrypted with
    | none => rw [hx] at this; cases this
    | some x =>
      unfold bodyDecrypted at hb
      rw [hx] at hb
      cases Except.ok.inj hb
      refine ⟨rfl, rfl, rfl, rfl, ?_⟩
      intro G
      unfold streamBody
      rw [hd]
  | none =>
    rw [hd] at h
    dsimp only at h
    rw [hb, ok_bind] at h
    obtain ⟨b, h1, h⟩ := except_bind_ok h
    cases hf : s.filter with
    | null =>
      rw [hf] at h
      cases Except.ok.inj h
      refine ⟨rfl, hf.symm ▸ rfl, rfl, rfl, ?_⟩
      intro G
      have e1 : streamBody m c k F s n g rnd = .ok body := by
        unfold streamBody; rw [hd, hb, ok_bind, hf]
      rw [e1]
      rfl
    | _ =>
      rw [hf] at h
      cases Except.ok.inj h
      exact ⟨rfl, hf.symm ▸ rfl, rfl, rfl, fun G => h1.symm ▸ rfl⟩

/-- What is saved for a stream that was not changed. -/
theorem removed_stream {m : Overflow} {c : Codecs} {k : Crypto} {rnd : Bytes} {doc doc' : SecDoc}
    (he : doc.file.isEncrypted = true) (h : removeEncryption m c k rnd doc = .ok doc') {i j n g : Nat}
    {entries : List (Bytes × SecObj)} {s : StreamState} (ho : doc.at i j = some ⟨n, g, some (.stream entries s)⟩)
    {body : Bytes} (hb : bodyDecrypted k doc.file s n g rnd = .ok body) (hdec : ∀ b, s.decoded = some b → s.decrypted.isSome)
    (iv : Bytes) :
    ∃ es s' d b, doc'.at i j = some ⟨n, g, some (.stream es s')⟩ ∧ EntriesReadAs k doc.file n g rnd entries d ∧
      streamBody m c k doc.file s n g rnd = .ok b ∧
      (∀ resolve iv', savedTop m c k doc' resolve n g rnd iv iv' (.stream es s') =
        saveStream m c k { doc.file with dict := none } true resolve d s' n g rnd iv iv') ∧
      s'.decrypted = some body ∧ s'.filter = s.filter ∧ s'.dirty = s.dirty ∧
      ∀ G, streamBody m c k G s' n g rnd = .ok b := by
  obtain ⟨t, h1, h2⟩ := removed_at he h ho
  unfold forceTop at h1
  obtain ⟨s', h3, h1⟩ := except_bind_ok h1
  obtain ⟨es, h4, h1⟩ := except_bind_ok h1
  cases Except.ok.inj h1
  obtain ⟨d, h5, h6⟩ := forceEntries_saved iv h4
  obtain ⟨k1, k2, k3, _, k5⟩ := forceStream_spec hb hdec h3
  have hbody : ∃ b, streamBody m c k doc.file s n g rnd = .ok b := by
    unfold forceStream at h3
    cases hd : s.decoded with
    | some b => exact ⟨b, by unfold streamBody; rw [hd]⟩
    | none =>
      rw [hd] at h3
      dsimp only at h3
      rw [hb, ok_bind] at h3
      obtain ⟨b, hb, _⟩ := except_bind_ok h3
      exact ⟨b, hb⟩
  obtain ⟨b, hbb⟩ := hbody
  refine ⟨es, s', d, b, h2, h6, hbb, ?_, k1, k2, k3, fun G => (k5 G).trans hbb⟩
  intro resolve iv'
  show (savedEntries k doc'.file n g rnd iv es >>= fun d =>
    saveStream m c k doc'.file doc'.encryptionDirty resolve d s' n g rnd iv iv') = _
  rw [(removed_doc he h).1, (removed_doc he h).2]
  exact h5 ▸ rfl

theorem reinsert_find (k q : Bytes) (v : Obj) (d : Dict) :
    mapFind q (mapInsert k v (mapErase k d)) = if q = k then some v else mapFind q d := by
  by_cases h : q = k
  · subst h
    rw [if_pos rfl, mapFind_insert_new]
    rw [mapErase_find, if_pos rfl]
  · rw [if_neg h, mapFind_insert_ne h, mapErase_find, if_neg h]

end VPdf
