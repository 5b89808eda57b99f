import Verif.Spec.SecureSave
import Verif.Spec.Incremental
import Verif.Props.StreamSave
import Verif.Props.Passwords
import Verif.Lemmas.RemoveEncryption

/-! Lemmas on saving encrypted documents. -/
namespace VPdf
open Spec (Lawful ReadAs ItemsReadAs EntriesReadAs SameBut SameButItems SameButEntries Uniform UniformItems UniformEntries
  Scalar SecHolds ChangedIn dropNulls dropNullsItems dropNullsEntries valueAt DocHolds entryObject)

/-! ### Objects whose strings are related -/

section Relation

variable {R : Bytes → Bytes → Prop}

theorem Spec.SameBut.null_iff {w v : Obj} (h : SameBut R w v) : w = .null ↔ v = .null := by
  cases h <;> simp

mutual

theorem Spec.SameBut.dropNulls : ∀ {w v : Obj}, SameBut R w v → SameBut R (Spec.dropNulls w) (Spec.dropNulls v)
  | _, _, .scalar (o := o) h => by
    cases o <;> exact .scalar h
  | _, _, .lit h => .lit h
  | _, _, .hex h => .hex h
  | _, _, .arr h => .arr h.dropNulls
  | _, _, .dict h => .dict h.dropNulls

theorem Spec.SameButItems.dropNulls : ∀ {w v : List Obj}, SameButItems R w v →
    SameButItems R (Spec.dropNullsItems w) (Spec.dropNullsItems v)
  | _, _, .nil => .nil
  | _, _, .cons h hs => .cons h.dropNulls hs.dropNulls

theorem Spec.SameButEntries.dropNulls : ∀ {w v : Dict}, SameButEntries R w v →
    SameButEntries R (Spec.dropNullsEntries w) (Spec.dropNullsEntries v)
  | _, _, .nil => .nil
  | _, _, .cons (key := key) (w := w) (v := v) (ws := ws) (vs := vs) h hs => by
    by_cases hw : w = .null
    · have hv := h.null_iff.mp hw
      subst hw; subst hv
      exact hs.dropNulls
    · have hv : v ≠ .null := fun e => hw (h.null_iff.mpr e)
      rw [dropNullsEntries.eq_3 key w ws hw, dropNullsEntries.eq_3 key v vs hv]
      exact .cons h.dropNulls hs.dropNulls

end

/-- What is found under a key. -/
theorem Spec.SameButEntries.valueAt : ∀ {w v : Dict}, SameButEntries R w v → ∀ key,
    (Spec.valueAt key w = none ∧ Spec.valueAt key v = none) ∨
      ∃ x y, Spec.valueAt key w = some x ∧ Spec.valueAt key v = some y ∧ SameBut R x y
  | _, _, .nil, key => .inl ⟨rfl, rfl⟩
  | _, _, .cons (key := q) (w := w) (v := v) (ws := ws) (vs := vs) h hs, key => by
    have ih := hs.valueAt key
    unfold Spec.valueAt
    by_cases hq : key = q
    · rw [if_pos hq, if_pos hq]; exact .inr ⟨w, v, rfl, rfl, h⟩
    · rw [if_neg hq, if_neg hq]; exact ih

end Relation

section Length

variable {R : Bytes → Bytes → Prop}

theorem Spec.SameButEntries.length {w v : Dict} (h : SameButEntries R w v) {resolve : Nat → Nat → Res Int} {l : Nat}
    (hl : Spec.LengthIs resolve v l) : Spec.LengthIs resolve w l := by
  rcases h.valueAt (b! "Length") with ⟨_, h2⟩ | ⟨x, y, h1, h2, h3⟩
  · rcases hl with hl | ⟨_, _, hl, _⟩ | ⟨_, _, hl, _⟩ <;> rw [h2] at hl <;> cases hl
  · rcases hl with hl | ⟨a, b, hl, h4⟩ | ⟨a, b, hl, h4⟩
    · cases Option.some.inj (h2.symm.trans hl); cases h3; exact .inl h1
    · cases Option.some.inj (h2.symm.trans hl); cases h3; exact .inr (.inl ⟨a, b, h1, h4⟩)
    · cases Option.some.inj (h2.symm.trans hl); cases h3; exact .inr (.inr ⟨a, b, h1, h4⟩)

theorem Spec.SameButEntries.keys : ∀ {w v : Dict}, SameButEntries R w v → w.map (·.1) = v.map (·.1)
  | _, _, .nil => rfl
  | _, _, .cons _ hs => by rw [List.map_cons, List.map_cons, hs.keys]

mutual

theorem Spec.SameBut.holdable : ∀ {w v : Obj}, SameBut R w v → Spec.Holdable v → Spec.Holdable w
  | _, _, .scalar _, h => h
  | _, _, .lit _, _ => .lit _
  | _, _, .hex _, _ => .hex _
  | _, _, .arr hs, .arr _ h => .arr _ (hs.holdable h)
  | _, _, .dict hs, .dict _ h1 h2 => .dict _ (by
      have := hs.keys
      unfold Spec.SortedKeys at h1 ⊢
      have h3 := List.pairwise_map (f := fun x : Bytes × Obj => x.1) (R := fun a b => bytesLt a b = true) |>.mpr h1
      rw [← this] at h3
      exact List.pairwise_map.mp h3) (hs.holdable h2)

theorem Spec.SameButItems.holdable : ∀ {w v : List Obj}, SameButItems R w v → (∀ o ∈ v, Spec.Holdable o) → ∀ o ∈ w, Spec.Holdable o
  | _, _, .nil, _ => nofun
  | _, _, .cons h hs, hv => by
    intro o ho
    rcases List.mem_cons.mp ho with rfl | ho
    · exact h.holdable (hv _ (List.mem_cons_self ..))
    · exact hs.holdable (fun o ho => hv o (List.mem_cons_of_mem _ ho)) o ho

theorem Spec.SameButEntries.holdable : ∀ {w v : Dict}, SameButEntries R w v → (∀ x ∈ v, Spec.Holdable x.2) →
    ∀ x ∈ w, Spec.Holdable x.2
  | _, _, .nil, _ => nofun
  | _, _, .cons h hs, hv => by
    intro o ho
    rcases List.mem_cons.mp ho with rfl | ho
    · exact h.holdable (hv _ (List.mem_cons_self ..))
    · exact hs.holdable (fun o ho => hv o (List.mem_cons_of_mem _ ho)) o ho

end

end Length

/-! ### Objects as saved -/

section Saved

variable {R : Bytes → Bytes → Prop} {k : Crypto} {F : SecureFile} {n g : Nat} {r iv : Bytes} {e : Bool}

mutual

theorem savedObj_same (hR : ∀ st val, stringWrite k F e n g r iv val = .ok st → R st val) : ∀ {o : SecObj} {w : Obj},
    Uniform e o → savedObj k F n g r iv o = .ok w → ∃ v, ReadAs k F n g r o v ∧ SameBut R w v
  | .other o, w, .other hs, h => by
    cases Except.ok.inj h
    exact ⟨o, .other o, .scalar hs⟩
  | .str s, w, .str hs, h => by
    unfold savedObj at h
    obtain ⟨v, hv, h⟩ := except_bind_ok h
    obtain ⟨x, hx, h⟩ := except_bind_ok h
    rw [hs] at hx
    have hv : Spec.StringReads k F n g r s v := by
      unfold SecString.getValue at hv
      cases hs : s.value with
      | some x => rw [hs] at hv; cases hv; exact .inl hs
      | none => rw [hs] at hv; exact .inr ⟨hs, hv⟩
    cases hh : s.hex with
    | false => rw [hh] at h; cases Except.ok.inj h; exact ⟨.lit v, .lit hh hv, .lit (hR _ _ hx)⟩
    | true => rw [hh] at h; cases Except.ok.inj h; exact ⟨.hex v, .hex hh hv, .hex (hR _ _ hx)⟩
  | .arr items, w, .arr hs, h => by
    unfold savedObj at h
    obtain ⟨ws, hw, h⟩ := except_bind_ok h
    cases Except.ok.inj h
    obtain ⟨vs, h1, h2⟩ := savedItems_same hR hs hw
    exact ⟨.arr vs, .arr h1, .arr h2⟩
  | .dict entries, w, .dict hs, h => by
    unfold savedObj at h
    obtain ⟨ws, hw, h⟩ := except_bind_ok h
    cases Except.ok.inj h
    obtain ⟨vs, h1, h2⟩ := savedEntries_same hR hs hw
    exact ⟨.dict vs, .dict h1, .dict h2⟩

theorem savedItems_same (hR : ∀ st val, stringWrite k F e n g r iv val = .ok st → R st val) : ∀ {os : List SecObj} {ws : List Obj},
    UniformItems e os → savedItems k F n g r iv os = .ok ws → ∃ vs, ItemsReadAs k F n g r os vs ∧ SameButItems R ws vs
  | [], ws, .nil, h => by
    cases Except.ok.inj h
    exact ⟨[], .nil, .nil⟩
  | o :: os, ws, .cons ho hos, h => by
    unfold savedItems at h
    obtain ⟨w, hw, h⟩ := except_bind_ok h
    obtain ⟨ws', hws, h⟩ := except_bind_ok h
    cases Except.ok.inj h
    obtain ⟨v, h1, h2⟩ := savedObj_same hR ho hw
    obtain ⟨vs, h3, h4⟩ := savedItems_same hR hos hws
    exact ⟨v :: vs, .cons h1 h3, .cons h2 h4⟩

theorem savedEntries_same (hR : ∀ st val, stringWrite k F e n g r iv val = .ok st → R st val) :
    ∀ {es : List (Bytes × SecObj)} {d : Dict}, UniformEntries e es → savedEntries k F n g r iv es = .ok d →
      ∃ d', EntriesReadAs k F n g r es d' ∧ SameButEntries R d d'
  | [], ws, .nil, h => by
    cases Except.ok.inj h
    exact ⟨[], .nil, .nil⟩
  | (key, o) :: os, ws, .cons ho hos, h => by
    unfold savedEntries at h
    obtain ⟨w, hw, h⟩ := except_bind_ok h
    obtain ⟨ws', hws, h⟩ := except_bind_ok h
    cases Except.ok.inj h
    obtain ⟨v, h1, h2⟩ := savedObj_same hR ho hw
    obtain ⟨vs, h3, h4⟩ := savedEntries_same hR hos hws
    exact ⟨(key, v) :: vs, .cons h1 h3, .cons h2 h4⟩

end

end Saved

/-! ### Where objects are saved -/

theorem secureEntries_mem {m : Overflow} {c : Codecs} {k : Crypto} {doc : SecDoc} {resolve : Nat → Nat → Res Int} {rnd iv iv' : Bytes} :
    ∀ {es : List SecEntry} {ws : List WEntry}, secureEntries m c k doc resolve rnd iv iv' es = .ok ws →
      (∀ n g t, ⟨n, g, some t⟩ ∈ es → ∃ o, savedTop m c k doc resolve n g rnd iv iv' t = .ok o ∧ ⟨n, g, .used 0 (some o)⟩ ∈ ws) ∧
      ∀ w ∈ ws, ∃ e ∈ es, e.num = w.num ∧ e.gen = w.gen
  | [], ws, h => by
    cases Except.ok.inj h
    exact ⟨nofun, nofun⟩
  | e :: es, ws, h => by
    unfold secureEntries at h
    obtain ⟨kind, hk, h⟩ := except_bind_ok h
    obtain ⟨ws', hws, h⟩ := except_bind_ok h
    cases Except.ok.inj h
    obtain ⟨h1, h2⟩ := secureEntries_mem hws
    constructor
    · intro n g t ht
      rcases List.mem_cons.mp ht with he | ht
      · subst he
        obtain ⟨o, ho, hk⟩ := except_bind_ok hk
        cases Except.ok.inj hk
        exact ⟨o, ho, List.mem_cons_self ..⟩
      · obtain ⟨o, h3, h4⟩ := h1 n g t ht
        exact ⟨o, h3, List.mem_cons_of_mem _ h4⟩
    · intro w hw
      rcases List.mem_cons.mp hw with he | hw
      · subst he; exact ⟨e, List.mem_cons_self .., rfl, rfl⟩
      · obtain ⟨x, hx, h3⟩ := h2 w hw
        exact ⟨x, List.mem_cons_of_mem _ hx, h3⟩

theorem secureSections_holds {m : Overflow} {c : Codecs} {k : Crypto} {doc : SecDoc} {resolve : Nat → Nat → Res Int}
    {rnd iv iv' : Bytes} {n g : Nat} {t : SecTop} : ∀ {secs : List SecSection}, SecHolds secs n g t →
      ∀ {owns : List (Option (Nat × Nat))} {ss : List WSection}, some (n, g) ∉ owns →
      secureSections m c k doc resolve rnd iv iv' owns secs = .ok ss →
      ∃ o, savedTop m c k doc resolve n g rnd iv iv' t = .ok o ∧ DocHolds ss n g o := by
  intro secs hs
  induction hs with
  | here hmem =>
    intro owns ss hown h
    unfold secureSections at h
    obtain ⟨es, he, h⟩ := except_bind_ok h
    obtain ⟨ss', _, h⟩ := except_bind_ok h
    cases Except.ok.inj h
    obtain ⟨o, h1, h2⟩ := (secureEntries_mem he).1 _ _ _ hmem
    refine ⟨o, h1, ?_⟩
    refine DocHolds.here ⟨_, es, _⟩ ss' ⟨_, _, .used 0 (some o)⟩ h2 ?_
    intro he
    cases owns with
    | nil => cases he
    | cons a l =>
      apply hown
      have : a = some (_, _) := he
      rw [← this]; exact List.mem_cons_self ..
  | older hno _ ih =>
    intro owns ss hown h
    unfold secureSections at h
    obtain ⟨es, he, h⟩ := except_bind_ok h
    obtain ⟨ss', h', h⟩ := except_bind_ok h
    cases Except.ok.inj h
    obtain ⟨o, h1, h2⟩ := ih (fun hm => hown (List.mem_of_mem_tail hm)) h'
    refine ⟨o, h1, DocHolds.older _ _ _ _ _ ?_ h2⟩
    intro w hw hnum
    obtain ⟨x, hx, h3, h4⟩ := (secureEntries_mem he).2 w hw
    exact hno x hx ⟨h3.trans hnum.1, h4.trans hnum.2⟩

/-! ### Strings encrypted with RC4 -/

/-- The bytes of an object that is encrypted with RC4. -/
theorem rc4_encrypted {k : Crypto} {F : SecureFile} {d : EncDict} {key : Bytes} {alg : Algorithm} {n g : Nat} {r iv data st : Bytes}
    (hF : F.dict = some d) (hkey : fileKey k F d r = .ok key) (ha : alg ≠ .aes) (hn : n ≠ 0)
    (h : encryptAlg k F alg n g r iv data = .ok st) :
    st = if d.entry = some (n, g) then data else Spec.enciphered k key n g data := by
  unfold encryptAlg at h
  rw [hF] at h
  dsimp only at h
  rw [hkey, ok_bind] at h
  by_cases he : d.entry = some (n, g)
  · rw [if_pos ⟨by rw [he]; rfl, .inr he⟩] at h
    rw [if_pos he]
    exact (Except.ok.inj h).symm
  · rw [if_neg (by rintro ⟨_, h | h⟩; exacts [hn h, he h]), if_neg (fun h => ha h.2), if_neg ha] at h
    rw [if_neg he]
    unfold computeRC4 at h
    obtain ⟨_, _, h⟩ := except_bind_ok h
    rw [if_neg (by omega)] at h
    obtain ⟨_, _, h⟩ := except_bind_ok h
    rw [← Except.ok.inj h, List.take_length, C45_derivation]
    simp [Spec.enciphered, Spec.rc4, xorBytes, ha]

/-- RC4 undoes itself in another copy of the file. -/
theorem rc4_decrypted {k : Crypto} (hk : Lawful k) {F F' : SecureFile} {d : EncDict} {key : Bytes} {alg : Algorithm} {n g : Nat}
    {r r' iv data st : Bytes} (hF : F.dict = some d) (hF' : F'.dict = some d) (hkey : fileKey k F d r = .ok key)
    (hkey' : fileKey k F' d r' = .ok key) (hent : F'.entry n g = some false) (ha : alg ≠ .aes) (hn : n ≠ 0)
    (h : encryptAlg k F alg n g r iv data = .ok st) : decryptAlg k F' alg n g r' st = .ok data := by
  unfold encryptAlg at h
  unfold decryptAlg
  rw [hF] at h
  rw [hF']
  dsimp only at h ⊢
  rw [hkey, ok_bind] at h
  by_cases he : d.entry = some (n, g)
  · rw [if_pos ⟨by rw [he]; rfl, .inr he⟩] at h
    cases Except.ok.inj h
    rw [if_pos he]
    split
    · next h0 => rw [h0]
    · rfl
  · rw [if_neg (by rintro ⟨_, h | h⟩; exacts [hn h, he h]), if_neg (fun h => ha h.2), if_neg ha] at h
    have hl := computeRC4_length hk h
    by_cases h0 : st = []
    · rw [if_pos h0]
      rw [h0] at hl
      rw [List.eq_nil_of_length_eq_zero hl.symm]
    · rw [if_neg h0, if_neg he, hent]
      dsimp only
      rw [hkey', ok_bind, if_neg (fun h => ha h.2), if_neg ha]
      exact computeRC4_twice hk h

/-- A string as written and as read again. -/
theorem rc4_string {k : Crypto} (hk : Lawful k) {F F' : SecureFile} {d : EncDict} {key : Bytes} (hF : Reopened k F F' d key)
    {alg : Algorithm} (ha : defaultAlgorithm d d.stringFilter = .ok alg) (hna : alg ≠ .aes) {n g : Nat} (hn : n ≠ 0)
    (hent : F'.entry n g = some false) {e : Bool} {r iv val st : Bytes} (r' : Bytes)
    (h : stringWrite k F e n g r iv val = .ok st) :
    st = (if e = true ∨ d.entry = some (n, g) then val else Spec.enciphered k key n g val) ∧
      stringRead k F' e n g r' st = .ok val := by
  have e1 : F.isEncrypted = true := by simp [SecureFile.isEncrypted, hF.written]
  have e2 : F'.isEncrypted = true := by simp [SecureFile.isEncrypted, hF.read]
  unfold stringWrite at h
  unfold stringRead
  rw [e1] at h
  rw [e2]
  cases e with
  | true => cases Except.ok.inj h; exact ⟨by simp, rfl⟩
  | false =>
    simp only [Bool.not_false, Bool.and_self, if_true] at h ⊢
    unfold encryptString at h
    unfold decryptString
    rw [hF.written] at h
    rw [hF.read]
    dsimp only at h ⊢
    rw [ha, ok_bind] at h
    rw [ha, ok_bind]
    refine ⟨?_, rc4_decrypted hk hF.written hF.read (hF.writtenKey r) (hF.readKey r') hent hna hn h⟩
    rw [rc4_encrypted hF.written (hF.writtenKey r) hna hn h]
    simp

/-- Copies of a file decrypt in the same way. -/
theorem decryptAlg_copy {k : Crypto} {F F' : SecureFile} {d : EncDict} {key : Bytes} (hF : Reopened k F F' d key) {n g : Nat}
    (hent : F'.entry n g = F.entry n g) (alg : Algorithm) (r r' data : Bytes) :
    decryptAlg k F' alg n g r' data = decryptAlg k F alg n g r data := by
  unfold decryptAlg
  rw [hF.written, hF.read]
  dsimp only
  rw [hent, hF.writtenKey, hF.readKey]

/-- The body of a stream is read in the same way in a copy of the file. -/
theorem bodyDecrypted_copy {k : Crypto} {F F' : SecureFile} {d : EncDict} {key : Bytes} (hF : Reopened k F F' d key) {n g : Nat}
    (hent : F'.entry n g = F.entry n g) (s : StreamState) (r r' : Bytes) :
    bodyDecrypted k F' s n g r' = bodyDecrypted k F s n g r := by
  have e1 : F.isEncrypted = true := by simp [SecureFile.isEncrypted, hF.written]
  have e2 : F'.isEncrypted = true := by simp [SecureFile.isEncrypted, hF.read]
  have h1 : ∀ x, decryptStream k F' n g r' x = decryptStream k F n g r x := by
    intro x; unfold decryptStream; rw [hF.written, hF.read]; dsimp only
    simp only [decryptAlg_copy hF hent _ r r']
  have h2 : ∀ h x, decryptNamed k F' h n g r' x = decryptNamed k F h n g r x := by
    intro h x; unfold decryptNamed; rw [hF.written, hF.read]; dsimp only
    rw [decryptAlg_copy hF hent _ r r']
  unfold bodyDecrypted
  simp only [e1, e2, h1, h2]

/-! ### Changed objects -/

theorem incrementalEntries_mem {m : Overflow} {c : Codecs} {k : Crypto} {F : SecureFile} {resolve : Nat → Nat → Res Int}
    {rnd iv iv' : Bytes} : ∀ {es : List MarkedEntry} {is : List IEntry},
      incrementalEntries m c k F resolve rnd iv iv' es = .ok is →
      (∀ e ∈ es, ∃ i ∈ is, incrementalEntry m c k F resolve rnd iv iv' e = .ok i) ∧
      ∀ i ∈ is, ∃ e ∈ es, incrementalEntry m c k F resolve rnd iv iv' e = .ok i
  | [], is, h => by
    cases Except.ok.inj h
    exact ⟨nofun, nofun⟩
  | e :: es, is, h => by
    unfold incrementalEntries at h
    obtain ⟨i, hi, h⟩ := except_bind_ok h
    obtain ⟨is', his, h⟩ := except_bind_ok h
    cases Except.ok.inj h
    obtain ⟨h1, h2⟩ := incrementalEntries_mem his
    constructor
    · intro x hx
      rcases List.mem_cons.mp hx with rfl | hx
      · exact ⟨i, List.mem_cons_self .., hi⟩
      · obtain ⟨j, hj, h3⟩ := h1 x hx
        exact ⟨j, List.mem_cons_of_mem _ hj, h3⟩
    · intro x hx
      rcases List.mem_cons.mp hx with rfl | hx
      · exact ⟨e, List.mem_cons_self .., hi⟩
      · obtain ⟨j, hj, h3⟩ := h2 x hx
        exact ⟨j, List.mem_cons_of_mem _ hj, h3⟩

/-- The number of an entry is kept. -/
theorem incrementalEntry_number {m : Overflow} {c : Codecs} {k : Crypto} {F : SecureFile} {resolve : Nat → Nat → Res Int}
    {rnd iv iv' : Bytes} {e : MarkedEntry} {i : IEntry} (h : incrementalEntry m c k F resolve rnd iv iv' e = .ok i) :
    match e with
    | .kept e => i.entry.num = e.num ∧ i.entry.gen = e.gen
    | .changed n g _ => i.entry.num = n ∧ i.entry.gen = g := by
  cases e with
  | kept e => cases Except.ok.inj h; exact ⟨rfl, rfl⟩
  | changed n g o =>
    cases o with
    | none => cases Except.ok.inj h; exact ⟨rfl, rfl⟩
    | some t =>
      unfold incrementalEntry at h
      obtain ⟨t', _, h⟩ := except_bind_ok h
      obtain ⟨o, _, h⟩ := except_bind_ok h
      cases Except.ok.inj h
      exact ⟨rfl, rfl⟩

theorem incrementalSections_holds {m : Overflow} {c : Codecs} {k : Crypto} {F : SecureFile} {resolve : Nat → Nat → Res Int}
    {rnd iv iv' : Bytes} {n g : Nat} {t : SecTop} : ∀ {secs : List MarkedSection}, ChangedIn secs n g t →
      ∀ {cur : List ISection}, incrementalSections m c k F resolve rnd iv iv' secs = .ok cur →
      ∃ t' o, copiedTop k F n g rnd t = .ok t' ∧ savedTop m c k ⟨freshFile, false, []⟩ resolve n g rnd iv iv' t' = .ok o ∧
        DocHolds (cur.map ISection.plain) n g o := by
  intro secs hs
  induction hs with
  | here hown hmem =>
    intro cur h
    unfold incrementalSections at h
    obtain ⟨es, he, h⟩ := except_bind_ok h
    obtain ⟨is, _, h⟩ := except_bind_ok h
    cases Except.ok.inj h
    obtain ⟨i, hi, h1⟩ := (incrementalEntries_mem he).1 _ hmem
    unfold incrementalEntry at h1
    obtain ⟨t', h2, h1⟩ := except_bind_ok h1
    obtain ⟨o, h3, h1⟩ := except_bind_ok h1
    cases Except.ok.inj h1
    refine ⟨t', o, h2, h3, ?_⟩
    exact DocHolds.here _ _ ⟨_, _, .used 0 (some o)⟩ (List.mem_map.mpr ⟨_, hi, rfl⟩) hown
  | older hno _ ih =>
    intro cur h
    unfold incrementalSections at h
    obtain ⟨es, he, h⟩ := except_bind_ok h
    obtain ⟨is, h', h⟩ := except_bind_ok h
    cases Except.ok.inj h
    obtain ⟨t', o, h1, h2, h3⟩ := ih h'
    refine ⟨t', o, h1, h2, DocHolds.older _ _ _ _ _ ?_ h3⟩
    intro w hw hnum
    obtain ⟨i, hi, rfl⟩ := List.mem_map.mp hw
    obtain ⟨x, hx, h4⟩ := (incrementalEntries_mem he).2 i hi
    have h5 := incrementalEntry_number h4
    have h6 := hno x hx
    cases x with
    | kept e => exact h6 ⟨h5.1.symm.trans hnum.1, h5.2.symm.trans hnum.2⟩
    | changed a b o => exact h6 ⟨h5.1.symm.trans hnum.1, h5.2.symm.trans hnum.2⟩

/-- A changed object makes a marked entry. -/
theorem incrementalSections_marked {m : Overflow} {c : Codecs} {k : Crypto} {F : SecureFile} {resolve : Nat → Nat → Res Int}
    {rnd iv iv' : Bytes} {n g : Nat} {t : SecTop} : ∀ {secs : List MarkedSection}, ChangedIn secs n g t →
      ∀ {cur : List ISection}, incrementalSections m c k F resolve rnd iv iv' secs = .ok cur → ∃ e, Spec.MarkedIn cur e := by
  intro secs hs
  induction hs with
  | here hown hmem =>
    intro cur h
    unfold incrementalSections at h
    obtain ⟨es, he, h⟩ := except_bind_ok h
    obtain ⟨is, _, h⟩ := except_bind_ok h
    cases Except.ok.inj h
    obtain ⟨i, hi, h1⟩ := (incrementalEntries_mem he).1 _ hmem
    unfold incrementalEntry at h1
    obtain ⟨t', h2, h1⟩ := except_bind_ok h1
    obtain ⟨o, h3, h1⟩ := except_bind_ok h1
    cases Except.ok.inj h1
    exact ⟨_, rfl, _, List.mem_cons_self .., hi⟩
  | older hno _ ih =>
    intro cur h
    unfold incrementalSections at h
    obtain ⟨es, he, h⟩ := except_bind_ok h
    obtain ⟨is, h', h⟩ := except_bind_ok h
    cases Except.ok.inj h
    obtain ⟨e, h1, i, h2, h3⟩ := ih h'
    exact ⟨e, h1, i, List.mem_cons_of_mem _ h2, h3⟩

section Plain

variable {k : Crypto} {F G : SecureFile} {n g : Nat} {r iv : Bytes}

mutual

/-- Files that are not encrypted save objects in the same way. -/
theorem savedObj_plain (hF : F.dict = none) (hG : G.dict = none) : ∀ o : SecObj, savedObj k F n g r iv o = savedObj k G n g r iv o
  | .other o => rfl
  | .str s => by
    unfold savedObj SecString.getValue stringRead stringWrite SecureFile.isEncrypted
    rw [hF, hG]
    cases s.value <;> simp
  | .arr items => by rw [savedObj, savedObj, savedItems_plain hF hG]
  | .dict entries => by rw [savedObj, savedObj, savedEntries_plain hF hG]

theorem savedItems_plain (hF : F.dict = none) (hG : G.dict = none) : ∀ os : List SecObj, savedItems k F n g r iv os = savedItems k G n g r iv os
  | [] => rfl
  | o :: os => by rw [savedItems, savedItems, savedObj_plain hF hG, savedItems_plain hF hG]

theorem savedEntries_plain (hF : F.dict = none) (hG : G.dict = none) :
    ∀ es : List (Bytes × SecObj), savedEntries k F n g r iv es = savedEntries k G n g r iv es
  | [] => rfl
  | (key, o) :: es => by rw [savedEntries, savedEntries, savedObj_plain hF hG, savedEntries_plain hF hG]

end

end Plain

end VPdf
