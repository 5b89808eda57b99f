import Verif.Spec.DocumentInfo
import Verif.Lemmas.PageEdit
import Verif.Props.Date
/-
  C96: the information of a document.
-/
namespace VPdf
open Spec

theorem target_plain (objs : Objects) {o : Obj} (h : ∀ n g, o ≠ .ref n g) : target objs o = .ok (.direct o) := by
  unfold target
  rw [show objs.length + 2 = (objs.length + 1) + 1 from rfl]
  cases o <;> first | rfl | exact absurd rfl (h _ _)

theorem infoString_congr (objs : Objects) {d d' : Dict} {k : Bytes} (h : mapFind k d' = mapFind k d) :
    infoString objs d' k = infoString objs d k := by unfold infoString; rw [h]

/-- A dictionary with another entry reports the same, up to the accessors of that entry. -/
theorem info_other (objs : Objects) (d : Dict) (k : Bytes) (v : Obj) (q : Bytes) (h : q ≠ k) :
    infoString objs (mapInsert k v d) q = infoString objs d q := infoString_congr objs (mapFind_insert_ne h)

theorem trapped_other (objs : Objects) (d : Dict) (k : Bytes) (v : Obj) (h : k ≠ b! "Trapped") :
    infoTrapped objs (mapInsert k v d) = infoTrapped objs d := by
  unfold infoTrapped
  rw [mapFind_insert_ne (Ne.symm h)]

theorem infoString_new (objs : Objects) {d : Dict} {k : Bytes} (h : mapFind k d = none) {v : Obj} {s : Bytes}
    (hv : v = .lit s ∨ v = .hex s) : infoString objs (mapInsert k v d) k = .ok (some s) := by
  unfold infoString
  rw [mapFind_insert_new h]
  rcases hv with rfl | rfl
  · dsimp only
    rw [target_plain objs (o := .lit s) (fun _ _ h => by cases h)]; rfl
  · dsimp only
    rw [target_plain objs (o := .hex s) (fun _ _ h => by cases h)]; rfl

theorem infoKey_injective {f g : InfoText} (h : f.key = g.key) : f = g := by
  cases f <;> cases g <;> first | rfl | (exact absurd h (by decide))

theorem infoKey_ne (f : InfoText) : f.key ≠ b! "CreationDate" ∧ f.key ≠ b! "ModDate" ∧ f.key ≠ b! "Trapped" := by
  cases f <;> decide

/-- A single call. -/
theorem infoSet_reports (objs : Objects) {d : Dict} {i : Info} (hr : Reports objs d i) {x : InfoSet} (hp : ProperSet x)
    (hn : mapFind x.key d = none) : ∃ d', infoSet d x = .ok d' ∧ d' = mapInsert x.key x.stored d ∧ Reports objs d' (i.set x) := by
  obtain ⟨h1, h2, h3, h4⟩ := hr
  refine ⟨_, by unfold infoSet insertOnce; rw [hn]; rfl, rfl, ?_⟩
  cases x with
  | text f v =>
    obtain ⟨s, hs⟩ := hp
    obtain ⟨k1, k2, k3⟩ := infoKey_ne f
    have hset : i.set (.text f v) = { i with text := fun g => if g = f then some s else i.text g } := by
      rcases hs with rfl | rfl <;> rfl
    rw [hset]
    refine ⟨fun g => ?_, ?_, ?_, ?_⟩
    · by_cases hg : g = f
      · subst hg
        show infoString objs (mapInsert g.key v d) g.key = _
        rw [infoString_new objs (show mapFind g.key d = none from hn) hs]
        simp
      · show infoString objs (mapInsert f.key v d) g.key = _
        rw [info_other objs d _ _ _ (fun h => hg (infoKey_injective h))]
        simpa [hg, infoText] using h1 g
    · unfold infoCreationDate
      rw [show infoString objs (mapInsert (InfoSet.text f v).key _ d) (b! "CreationDate") = _ from info_other objs d _ _ _ (Ne.symm k1)]
      exact h2
    · unfold infoModDate
      rw [show infoString objs (mapInsert (InfoSet.text f v).key _ d) (b! "ModDate") = _ from info_other objs d _ _ _ (Ne.symm k2)]
      exact h3
    · rw [show infoTrapped objs (mapInsert (InfoSet.text f v).key _ d) = _ from trapped_other objs d _ _ k3]
      exact h4
  | creation c =>
    obtain ⟨s, hs, hd⟩ := hp
    refine ⟨fun g => ?_, ?_, ?_, ?_⟩
    · exact (info_other objs d _ _ _ (infoKey_ne g).1).trans (h1 g)
    · unfold infoCreationDate
      rw [show infoString objs (mapInsert (InfoSet.creation c).key (InfoSet.creation c).stored d) (b! "CreationDate") = _ from
        infoString_new objs hn (Or.inl hs)]
      show (match ((do let v ← parseDate s; .ok (some v)) : Res (Option DateFields)) with
        | .error .throw => (.ok none : Res (Option DateFields))
        | r => r) = _
      rw [hd]; rfl
    · unfold infoModDate
      rw [show infoString objs (mapInsert (InfoSet.creation c).key _ d) (b! "ModDate") = _ from
        info_other objs d _ _ _ (by show b! "ModDate" ≠ b! "CreationDate"; decide)]
      exact h3
    · rw [show infoTrapped objs (mapInsert (InfoSet.creation c).key _ d) = _ from
        trapped_other objs d _ _ (by show b! "CreationDate" ≠ b! "Trapped"; decide)]
      exact h4
  | modification c =>
    obtain ⟨s, hs, hd⟩ := hp
    refine ⟨fun g => ?_, ?_, ?_, ?_⟩
    · exact (info_other objs d _ _ _ (infoKey_ne g).2.1).trans (h1 g)
    · unfold infoCreationDate
      rw [show infoString objs (mapInsert (InfoSet.modification c).key _ d) (b! "CreationDate") = _ from
        info_other objs d _ _ _ (by show b! "CreationDate" ≠ b! "ModDate"; decide)]
      exact h2
    · unfold infoModDate
      rw [show infoString objs (mapInsert (InfoSet.modification c).key (InfoSet.modification c).stored d) (b! "ModDate") = _ from
        infoString_new objs hn (Or.inl hs)]
      show ((do let v ← parseDate s; .ok (some v)) : Res (Option DateFields)) = _
      rw [hd]; rfl
    · rw [show infoTrapped objs (mapInsert (InfoSet.modification c).key _ d) = _ from
        trapped_other objs d _ _ (by show b! "ModDate" ≠ b! "Trapped"; decide)]
      exact h4
  | trapped t =>
    refine ⟨fun g => ?_, ?_, ?_, ?_⟩
    · exact (info_other objs d _ _ _ (infoKey_ne g).2.2).trans (h1 g)
    · unfold infoCreationDate
      rw [show infoString objs (mapInsert (InfoSet.trapped t).key _ d) (b! "CreationDate") = _ from
        info_other objs d _ _ _ (by show b! "CreationDate" ≠ b! "Trapped"; decide)]
      exact h2
    · unfold infoModDate
      rw [show infoString objs (mapInsert (InfoSet.trapped t).key _ d) (b! "ModDate") = _ from
        info_other objs d _ _ _ (by show b! "ModDate" ≠ b! "Trapped"; decide)]
      exact h3
    · unfold infoTrapped
      rw [show mapFind (b! "Trapped") (mapInsert (InfoSet.trapped t).key _ d) = _ from mapFind_insert_new hn]
      dsimp only [InfoSet.stored]
      rw [target_plain objs (fun _ _ h => by cases h), ok_bind]
      cases t <;> rfl

/-- **C96** (partial): after any history of calls that set different entries, none of which was there, the library reports
exactly what was set, and for all other entries what it reported before.  Missing: entries that are there already
(`C96_again_counterexample`), dates that were changed by hand (`C96_date_counterexample`). -/
theorem C96_history_partial (objs : Objects) (l : List InfoSet) : ∀ (d : Dict) (i : Info), Reports objs d i → SetOnce d l →
    (∀ x ∈ l, ProperSet x) → Reports objs (infoSetAll d l) (l.foldl Info.set i) := by
  induction l with
  | nil => intro d i hr _ _; exact hr
  | cons x l ih =>
    intro d i hr ho hp
    obtain ⟨ho1, ho2⟩ := ho
    rw [List.map_cons, List.pairwise_cons] at ho1
    obtain ⟨d', e1, e2, e3⟩ := infoSet_reports objs hr (hp x (by simp)) (ho2 x (by simp))
    rw [infoSetAll, e1]
    refine ih d' (i.set x) e3 ⟨ho1.2, fun y hy => ?_⟩ fun y hy => hp y (by simp [hy])
    rw [e2, mapFind_insert_ne (fun he => ho1.1 y.key (List.mem_map_of_mem hy) he.symm)]
    exact ho2 y (by simp [hy])

/-- Beginning with an empty dictionary. -/
theorem reports_empty (objs : Objects) : Reports objs [] {} := ⟨fun _ => rfl, rfl, rfl, rfl⟩

/-- A history that meets the conditions. -/
example : SetOnce [] [.text .title (.lit (b! "A")), .text .author (.hex (b! "B")), .trapped .no,
      .modification ⟨⟨2024, 2, 29, 23, 59, 59, .later, 5, 30⟩, .lit (b! "D:20240229235959+05'30'")⟩] ∧
    ∀ x ∈ [InfoSet.text .title (.lit (b! "A")), .text .author (.hex (b! "B")), .trapped .no,
      .modification ⟨⟨2024, 2, 29, 23, 59, 59, .later, 5, 30⟩, .lit (b! "D:20240229235959+05'30'")⟩], ProperSet x := by
  refine ⟨⟨by decide, fun x _ => rfl⟩, fun x hx => ?_⟩
  simp only [List.mem_cons, List.not_mem_nil, or_false] at hx
  rcases hx with rfl | rfl | rfl | rfl
  · exact ⟨_, Or.inl rfl⟩
  · exact ⟨_, Or.inr rfl⟩
  · trivial
  · exact ⟨_, rfl, by decide +kernel⟩

/-- **C96**: a date as the library makes it for the current time, and every date that was read and not changed, may be set. -/
theorem C96_dates (d : DateFields) (h : DateInRange d) (hz : d.zone = .utc → d.hourOffset = 0 ∧ d.minuteOffset = 0) (s : Bytes)
    (c : DateObject) (hc : dateFrom s = .ok c) : ProperSet (.creation ⟨d, .lit (dateText d)⟩) ∧ ProperSet (.creation c) := by
  refine ⟨⟨_, rfl, C52_written d h hz⟩, ?_⟩
  unfold dateFrom at hc
  cases hd : parseDate s with
  | error e => rw [hd] at hc; cases hc
  | ok f => rw [hd, ok_bind] at hc; cases hc; exact ⟨s, rfl, hd⟩

/-- **C96** fails of entries that are there: whatever the dictionary and the value, the call fails and the entry keeps its value.
What is reported in the end is what was there first, or was set first. -/
theorem C96_again_counterexample (d : Dict) (x : InfoSet) (h : (mapFind x.key d).isSome) :
    infoSet d x = .error .duplicateKey ∧ ∀ l, mapFind x.key (infoSetAll d l) = mapFind x.key d := by
  refine ⟨by unfold infoSet insertOnce; rw [if_pos h], fun l => ?_⟩
  induction l generalizing d with
  | nil => rfl
  | cons y l ih =>
    rw [infoSetAll]
    by_cases hy : (mapFind y.key d).isSome
    · unfold infoSet insertOnce
      rw [if_pos hy]
      exact ih d h
    · unfold infoSet insertOnce
      rw [if_neg hy]
      dsimp only
      by_cases he : y.key = x.key
      · rw [he] at hy; exact absurd h hy
      · have hf : mapFind x.key (mapInsert y.key y.stored d) = mapFind x.key d := mapFind_insert_ne (Ne.symm he)
        rw [ih _ (by rw [hf]; exact h), hf]

/-- In particular the producer and the creation date of a new document cannot be set, by any call at any time. -/
theorem C96_producer_counterexample (producer : Bytes) (now : DateFields) (l : List InfoSet) (v : Obj) (c : DateObject) :
    infoSet (infoSetAll (newInfo producer now) l) (.text .producer v) = .error .duplicateKey ∧
    infoSet (infoSetAll (newInfo producer now) l) (.creation c) = .error .duplicateKey := by
  have hp : (mapFind (b! "Producer") (newInfo producer now)).isSome := rfl
  have hc : (mapFind (b! "CreationDate") (newInfo producer now)).isSome := rfl
  have h1 := (C96_again_counterexample (newInfo producer now) (.text .producer v) hp).2 l
  have h2 := (C96_again_counterexample (newInfo producer now) (.creation c) hc).2 l
  constructor
  · unfold infoSet insertOnce
    rw [show mapFind (InfoSet.text .producer v).key _ = _ from h1]
    exact if_pos hp
  · unfold infoSet insertOnce
    rw [show mapFind (InfoSet.creation c).key _ = _ from h2]
    exact if_pos hc

/-- **C96** fails of dates that were changed by hand: whatever fields are changed, and in whatever way, what is stored is the text
from before. -/
theorem C96_date_counterexample (objs : Objects) (d : Dict) (s : Bytes) (c : DateObject) (hc : dateFrom s = .ok c)
    (change : DateFields → DateFields) (hn : mapFind (b! "ModDate") d = none) :
    ∃ d', infoSet d (.modification (c.change change)) = .ok d' ∧ (c.change change).fields = change c.fields ∧
      infoModDate objs d' = .ok (some c.fields) := by
  have hd : ∃ f, parseDate s = .ok f ∧ c = ⟨f, .lit s⟩ := by
    unfold dateFrom at hc
    cases hd : parseDate s with
    | error e => rw [hd] at hc; cases hc
    | ok f => rw [hd, ok_bind] at hc; cases hc; exact ⟨f, rfl, rfl⟩
  obtain ⟨f, hf, rfl⟩ := hd
  refine ⟨mapInsert (b! "ModDate") (.lit s) d, ?_, rfl, ?_⟩
  · unfold infoSet insertOnce
    rw [show mapFind (InfoSet.modification _).key d = none from hn]
    rfl
  · unfold infoModDate
    rw [infoString_new objs hn (Or.inl rfl)]
    show ((do let v ← parseDate s; .ok (some v)) : Res (Option DateFields)) = _
    rw [hf]; rfl

/-- A date made from nothing cannot be read back at all, whatever its fields were set to. -/
theorem C96_empty_date_counterexample (objs : Objects) (d : Dict) (change : DateFields → DateFields)
    (hn : mapFind (b! "ModDate") d = none) :
    ∃ d', infoSet d (.modification (emptyDate.change change)) = .ok d' ∧ infoModDate objs d' = .error .throw := by
  refine ⟨mapInsert (b! "ModDate") (.lit []) d, ?_, ?_⟩
  · unfold infoSet insertOnce
    rw [show mapFind (InfoSet.modification _).key d = none from hn]
    rfl
  · unfold infoModDate
    rw [infoString_new objs hn (Or.inl rfl)]
    show ((do let v ← parseDate []; .ok (some v)) : Res (Option DateFields)) = _
    rw [show parseDate [] = .error .throw by decide +kernel]
    rfl

theorem standard_stored (x : InfoSet) : standardEntry x = (x.key, x.stored) := by
  cases x with
  | text f v => cases f <;> rfl
  | creation => rfl
  | modification => rfl
  | trapped t => cases t <;> rfl

/-- **C96**: what stands in the file.  After any history of calls that set different entries, none of which was there, the dictionary
has the entries of the standard with the values that were set, and all other entries as before. -/
theorem C96_file (l : List InfoSet) : ∀ (d : Dict), SetOnce d l →
    (∀ x ∈ l, mapFind (standardEntry x).1 (infoSetAll d l) = some (standardEntry x).2) ∧
    ∀ k, (∀ x ∈ l, (standardEntry x).1 ≠ k) → mapFind k (infoSetAll d l) = mapFind k d := by
  induction l with
  | nil => intro d _; exact ⟨fun x hx => by simp at hx, fun _ _ => rfl⟩
  | cons x l ih =>
    intro d ⟨h1, h2⟩
    rw [List.map_cons, List.pairwise_cons] at h1
    have hx : mapFind x.key d = none := h2 x (by simp)
    have hs : infoSetAll d (x :: l) = infoSetAll (mapInsert x.key x.stored d) l := by
      rw [infoSetAll]
      unfold infoSet insertOnce
      rw [hx]
      rfl
    obtain ⟨e1, e2⟩ := ih (mapInsert x.key x.stored d) ⟨h1.2, fun y hy => by
      rw [mapFind_insert_ne (fun he => h1.1 y.key (List.mem_map_of_mem hy) he.symm)]
      exact h2 y (by simp [hy])⟩
    rw [hs]
    refine ⟨fun y hy => ?_, fun k hk => ?_⟩
    · rcases List.mem_cons.mp hy with rfl | hy
      · rw [standard_stored]
        dsimp only
        rw [e2 y.key (fun z hz => by rw [standard_stored]; exact fun he => h1.1 z.key (List.mem_map_of_mem hz) he.symm)]
        exact mapFind_insert_new hx
      · exact e1 y hy
    · rw [e2 k (fun z hz => hk z (by simp [hz]))]
      refine mapFind_insert_ne fun he => ?_
      have := hk x (by simp)
      rw [standard_stored] at this
      exact this he.symm

/-- Beginning with the information of a new document. -/
example : SetOnce (newInfo (b! "P") ⟨2024, 2, 29, 23, 59, 59, .later, 5, 30⟩) [.text .title (.lit (b! "A")), .trapped .yes] := by
  refine ⟨by decide, fun x hx => ?_⟩
  simp only [List.mem_cons, List.not_mem_nil, or_false] at hx
  rcases hx with rfl | rfl <;> decide +kernel

theorem sameLetter_upper (a b : Byte) : SameLetter a b ↔ toUpper a = toUpper b := by
  have e : ∀ x : Byte, toUpper x = if 0x61 ≤ x.toNat ∧ x.toNat ≤ 0x7A then x - 0x20 else x := fun x => rfl
  have hs : ∀ x : Byte, 0x61 ≤ x.toNat → (x - 0x20).toNat = x.toNat - 0x20 := by
    intro x hx
    rw [UInt8.toNat_sub_of_le]
    · rfl
    · show (0x20 : UInt8).toNat ≤ x.toNat
      exact Nat.le_trans (by decide) hx
  rw [e a, e b]
  unfold SameLetter
  constructor
  · rintro (rfl | ⟨h1, h2, h3⟩ | ⟨h1, h2, h3⟩)
    · rfl
    · rw [if_neg (by omega), if_pos (by omega)]
      apply UInt8.toNat_inj.mp
      rw [hs b (by omega)]; omega
    · rw [if_pos (by omega), if_neg (by omega)]
      apply UInt8.toNat_inj.mp
      rw [hs a (by omega)]; omega
  · intro h
    by_cases ha : 0x61 ≤ a.toNat ∧ a.toNat ≤ 0x7A <;> by_cases hb : 0x61 ≤ b.toNat ∧ b.toNat ≤ 0x7A
    · rw [if_pos ha, if_pos hb] at h
      have := congrArg UInt8.toNat h
      rw [hs a ha.1, hs b hb.1] at this
      exact .inl (UInt8.toNat_inj.mp (by omega))
    · rw [if_pos ha, if_neg hb] at h
      have := congrArg UInt8.toNat h
      rw [hs a ha.1] at this
      exact .inr (.inr ⟨by omega, by omega, by omega⟩)
    · rw [if_neg ha, if_pos hb] at h
      have := congrArg UInt8.toNat h
      rw [hs b hb.1] at this
      exact .inr (.inl ⟨by omega, by omega, by omega⟩)
    · rw [if_neg ha, if_neg hb] at h
      exact .inl h

theorem sameText_letters (a b : Bytes) : SameText a b ↔ sameLetters a b = true := by
  unfold SameText sameLetters
  by_cases hl : a.length = b.length
  · have hc : ¬ (a.length != b.length) = true := by simp [hl]
    rw [if_neg hc, beq_iff_eq]
    constructor
    · intro ⟨_, h⟩
      apply List.ext_getElem?
      intro i
      rw [List.getElem?_map, List.getElem?_map]
      cases ha : a[i]? with
      | none =>
        have : b[i]? = none := by rw [List.getElem?_eq_none_iff] at ha ⊢; omega
        rw [this]
      | some x =>
        have hi : i < b.length := by
          have := (List.getElem?_eq_some_iff.mp ha).1
          omega
        obtain ⟨y, hy⟩ : ∃ y, b[i]? = some y := ⟨b[i], List.getElem?_eq_getElem hi⟩
        rw [hy]
        exact congrArg some ((sameLetter_upper x y).mp (h i x y ha hy))
    · intro h
      refine ⟨hl, fun i x y hx hy => (sameLetter_upper x y).mpr ?_⟩
      have := congrArg (·[i]?) h
      simp only [List.getElem?_map, hx, hy] at this
      exact Option.some.inj this
  · have hc : (a.length != b.length) = true := by simp [hl]
    rw [if_pos hc]
    exact ⟨fun h => absurd h.1 hl, fun h => by cases h⟩

/-- **C96**: the entry that says whether a document is trapped.  Whether it is a name or a string, and whether its letters are small or
capital, what is reported is what it says; a text that says nothing of the kind is reported as no entry. -/
theorem C96_trapped (objs : Objects) (d : Dict) (o : Obj) (t : Bytes) (h : mapFind (b! "Trapped") d = some o)
    (ht : target objs o = .ok (.direct (.name t)) ∨ target objs o = .ok (.direct (.lit t)) ∨ target objs o = .ok (.direct (.hex t))) :
    ∃ r, infoTrapped objs d = .ok r ∧ SaysTrapped t r := by
  have key : infoTrapped objs d = (if sameLetters t (b! "True") then .ok (some .yes)
      else if sameLetters t (b! "False") then .ok (some .no)
      else if sameLetters t (b! "Unknown") then .ok (some .unknown) else .ok none) := by
    unfold infoTrapped
    rw [h]
    dsimp only
    rcases ht with e | e | e <;> rw [e] <;> rfl
  rw [key]
  unfold SaysTrapped
  simp only [sameText_letters]
  by_cases h1 : sameLetters t (b! "True") = true
  · rw [if_pos h1]; exact ⟨_, rfl, .inl ⟨rfl, h1⟩⟩
  · rw [if_neg h1]
    by_cases h2 : sameLetters t (b! "False") = true
    · rw [if_pos h2]; exact ⟨_, rfl, .inr (.inl ⟨rfl, h2⟩)⟩
    · rw [if_neg h2]
      by_cases h3 : sameLetters t (b! "Unknown") = true
      · rw [if_pos h3]; exact ⟨_, rfl, .inr (.inr (.inl ⟨rfl, h3⟩))⟩
      · rw [if_neg h3]; exact ⟨_, rfl, .inr (.inr (.inr ⟨rfl, h1, h2, h3⟩))⟩

/-- Letters of both kinds. -/
example : SameText (b! "tRUe") (b! "True") ∧ infoTrapped [] [(b! "Trapped", .lit (b! "tRUe"))] = .ok (some .yes) :=
  ⟨(sameText_letters _ _).mpr (by decide), by decide +kernel⟩

/-- **C96**: the texts.  The title, the author, the subject, the keywords, the creator and the producer that are reported are the
strings of the entries that the standard names so; an entry that is missing is reported as missing. -/
theorem C96_texts (objs : Objects) (d : Dict) (f : InfoText) (v : Obj) :
    (mapFind (standardEntry (.text f v)).1 d = none → infoText objs d f = .ok none) ∧
    ∀ o t, mapFind (standardEntry (.text f v)).1 d = some o →
      target objs o = .ok (.direct (.lit t)) ∨ target objs o = .ok (.direct (.hex t)) → infoText objs d f = .ok (some t) := by
  rw [standard_stored]
  unfold infoText infoString
  refine ⟨fun h => ?_, fun o t h ht => ?_⟩
  · rw [show mapFind f.key d = none from h]
  · rw [show mapFind f.key d = some o from h]
    dsimp only
    rcases ht with e | e <;> rw [e] <;> rfl

/-- A title. -/
example : target [] (.lit (b! "A")) = .ok (.direct (.lit (b! "A"))) := rfl

end VPdf
