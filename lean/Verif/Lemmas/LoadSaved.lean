import Verif.Lemmas.SaveStreams
import Verif.Spec.SaveStreams
import Verif.Props.LoadOrder
/-
  Loading the objects of a saved document with object streams.
-/
namespace VPdf
open Spec

/-! ### the newest entry -/

/-- The newest entry for an object and its section. -/
def NewestIn (ts : List WSection) (n g : Nat) (s : WSection) (e : WEntry) : Prop :=
  ∃ a b, ts = a ++ s :: b ∧ e ∈ s.entries ∧ e.num = n ∧ e.gen = g ∧ ∀ s' ∈ a, ∀ h ∈ s'.entries, ¬ (h.num = n ∧ h.gen = g)

theorem NewestIn.mem {ts : List WSection} {n g : Nat} {s : WSection} {e : WEntry} (h : NewestIn ts n g s e) :
    s ∈ ts ∧ e ∈ s.entries ∧ e.num = n ∧ e.gen = g := by
  obtain ⟨a, b, rfl, h1, h2, h3, _⟩ := h
  exact ⟨by simp, h1, h2, h3⟩

theorem holds_newest {ts : List WSection} {n g : Nat} {o : SObj} (h : DocHolds ts n g o) :
    ∃ s e, NewestIn ts n g s e ∧ s.own ≠ some (e.num, e.gen) ∧ entryObject e = o := by
  induction h with
  | here s ss e he hown => exact ⟨s, e, ⟨[], ss, rfl, he, rfl, rfl, by simp⟩, hown, rfl⟩
  | older s ss n g o hno _ ih =>
    obtain ⟨s', e, ⟨a, b, rfl, h1, h2, h3, h4⟩, h5⟩ := ih
    refine ⟨s', e, ⟨s :: a, b, rfl, h1, h2, h3, ?_⟩, h5⟩
    intro t ht
    rcases List.mem_cons.mp ht with rfl | ht
    · exact hno
    · exact h4 t ht

theorem newest_holds {ts : List WSection} {n g : Nat} {s : WSection} {e : WEntry} (h : NewestIn ts n g s e)
    (ho : s.own ≠ some (e.num, e.gen)) : DocHolds ts n g (entryObject e) := by
  obtain ⟨a, b, rfl, h1, rfl, rfl, h4⟩ := h
  induction a with
  | nil => exact .here s b e h1 ho
  | cons s' a ih => exact .older _ _ _ _ _ (h4 s' (by simp)) (ih fun t ht => h4 t (by simp [ht]))

section
variable {c : Codec} {r : Nat → Nat → Res Int} {F : Bytes}

theorem findRead_newest {n g : Nat} {s : WSection} {e : WEntry} {ts : List WSection} {xs : List ReadSection}
    (hz : Zip (InFile c r F) ts xs) (h : NewestIn ts n g s e) : ∃ y, findRead xs n g = some y ∧ Stored r F s.own e y := by
  obtain ⟨a, b, rfl, h1, rfl, rfl, h4⟩ := h
  induction a generalizing xs with
  | nil =>
    cases hz with
    | cons _ x _ xs hx hz =>
      obtain ⟨off, prev, w⟩ := hx
      obtain ⟨y, hy, hst⟩ := w.there e h1
      refine ⟨y, ?_, hst⟩
      have := find_of_mem w.distinct hy
      rw [hst.1] at this
      rw [findRead, this]; dsimp only
      rw [if_pos hst.2.1]
  | cons s' a ih =>
    cases hz with
    | cons _ x _ xs hx hz =>
      obtain ⟨y, k1, k2⟩ := ih hz (fun t ht => h4 t (by simp [ht]))
      obtain ⟨off, prev, w⟩ := hx
      refine ⟨y, ?_, k2⟩
      rw [findRead]
      cases hf : EntrySet.find e.num x.1 with
      | none => exact k1
      | some z =>
        dsimp only
        obtain ⟨z1, z2⟩ := find_some hf
        rw [if_neg]
        · exact k1
        · intro hgz
          obtain ⟨e', he', e1, e2⟩ := w.only z z1
          exact h4 s' (by simp) e' he' ⟨by omega, by omega⟩

theorem newest_findRead {n g : Nat} {y : XEntry} {ts : List WSection} {xs : List ReadSection}
    (hz : Zip (InFile c r F) ts xs) (h : findRead xs n g = some y) : ∃ s e, NewestIn ts n g s e ∧ Stored r F s.own e y := by
  induction hz with
  | nil => cases h
  | cons s x ts xs hx hz ih =>
    obtain ⟨off, prev, w⟩ := hx
    rw [findRead] at h
    have older : (∀ e ∈ s.entries, ¬ (e.num = n ∧ e.gen = g)) → findRead xs n g = some y →
        ∃ s' e, NewestIn (s :: ts) n g s' e ∧ Stored r F s'.own e y := by
      intro hno h
      obtain ⟨s', e, ⟨a, b, rfl, k1, k2, k3, k4⟩, k5⟩ := ih h
      refine ⟨s', e, ⟨s :: a, b, rfl, k1, k2, k3, fun t ht => ?_⟩, k5⟩
      rcases List.mem_cons.mp ht with rfl | ht
      · exact hno
      · exact k4 t ht
    have back : ∀ e ∈ s.entries, ∃ z, EntrySet.find e.num x.1 = some z ∧ Stored r F s.own e z := by
      intro e he
      obtain ⟨z, hz, hst⟩ := w.there e he
      have := find_of_mem w.distinct hz
      rw [hst.1] at this
      exact ⟨z, this, hst⟩
    cases hf : EntrySet.find n x.1 with
    | none =>
      rw [hf] at h
      refine older ?_ h
      rintro e he ⟨rfl, _⟩
      obtain ⟨z, hz, _⟩ := back e he
      rw [hf] at hz; cases hz
    | some z =>
      rw [hf] at h
      dsimp only at h
      obtain ⟨z1, z2⟩ := find_some hf
      by_cases hg : z.gen = g
      · rw [if_pos hg] at h
        injection h with h; subst h
        obtain ⟨e, he, e1, e2⟩ := w.only z z1
        obtain ⟨z', hz', hst⟩ := back e he
        have : e.num = n := by omega
        rw [this, hf] at hz'
        injection hz' with hz'; subst hz'
        exact ⟨s, e, ⟨[], ts, rfl, he, this, by omega, by simp⟩, hst⟩
      · rw [if_neg hg] at h
        refine older ?_ h
        rintro e he ⟨rfl, rfl⟩
        obtain ⟨z', hz', hst⟩ := back e he
        rw [hf] at hz'
        injection hz' with hz'; subst hz'
        exact hg hst.2.1
end

/-! ### the objects of a section in an object stream -/

theorem insertIndex_length (i : Nat) (x : Nat × SObj) (l : List (Nat × Nat × SObj)) : (insertIndex i x l).length = l.length + 1 := by
  induction l with
  | nil => rfl
  | cons z l ih =>
    obtain ⟨j, z⟩ := z
    rw [insertIndex]
    split
    · rfl
    · simp [ih]

theorem objStmMembers_length (sn : Nat) (es : List WEntry) : (objStmMembers sn es).length ≤ es.length := by
  induction es with
  | nil => exact Nat.le_refl _
  | cons e es ih =>
    rw [objStmMembers]
    split
    · split
      · rw [insertIndex_length]; simp; exact ih
      · simp; omega
    · simp; omega

/-- The objects as direct objects. -/
theorem members_direct (l : List (Nat × Nat × SObj)) (h : ∀ y ∈ l, ∃ x, y.2.2 = .direct x) :
    ∃ m : List (Nat × Obj), l.map (·.2) = m.map fun x => (x.1, SObj.direct x.2) := by
  induction l with
  | nil => exact ⟨[], rfl⟩
  | cons y l ih =>
    obtain ⟨m, hm⟩ := ih fun y hy => h y (by simp [hy])
    obtain ⟨x, hx⟩ := h y (by simp)
    refine ⟨(y.2.1, x) :: m, ?_⟩
    rw [List.map_cons, List.map_cons, hm, ← hx]

theorem natDec_length (n : Nat) (h : n < 10 ^ 20) : (natDec n).length ≤ 20 := by
  have := natDecAux_length (n + 1) n 19 [] h
  simpa [natDec] using this

theorem objStmBody_length (l : List (Nat × Bytes)) (hl : l.length ≤ 2147483648)
    (h : ∀ x ∈ l, x.1 ≤ 9223372036854775807 ∧ x.2.length ≤ 2147483648) : (objStmBody l).length ≤ 9223372036854775807 := by
  have hh : ∀ (l : List (Nat × Bytes)) (off : Nat), off + l.length * 2147483649 < 10 ^ 20 →
      (∀ x ∈ l, x.1 ≤ 9223372036854775807 ∧ x.2.length ≤ 2147483648) → (objStmHeader off l).length ≤ l.length * 42 := by
    intro l
    induction l with
    | nil => intro _ _ _; simp [objStmHeader]
    | cons x l ih =>
      intro off hoff h
      obtain ⟨n, t⟩ := x
      have h0 := h (n, t) (by simp)
      dsimp only at h0
      have h1 := natDec_length n (by omega)
      have h2 := natDec_length off (by omega)
      cases l with
      | nil => simp [objStmHeader]; omega
      | cons y l =>
        have := ih (off + t.length + 1) (by simp only [List.length_cons] at hoff ⊢; omega) (fun x hx => h x (by simp [hx]))
        simp only [objStmHeader, List.length_append, List.length_cons, List.length_nil] at this ⊢
        omega
  have hd : ∀ (l : List (Nat × Bytes)), (∀ x ∈ l, x.1 ≤ 9223372036854775807 ∧ x.2.length ≤ 2147483648) →
      (objStmData l).length ≤ l.length * 2147483649 := by
    intro l
    induction l with
    | nil => intro _; simp [objStmData]
    | cons x l ih =>
      intro h
      obtain ⟨n, t⟩ := x
      have h0 := h (n, t) (by simp)
      dsimp only at h0
      cases l with
      | nil => simp [objStmData]; omega
      | cons y l =>
        have := ih (fun x hx => h x (by simp [hx]))
        simp only [objStmData, List.length_append, List.length_cons, List.length_nil] at this ⊢
        omega
  have a := hh l 0 (by omega) h
  have b := hd l h
  simp only [objStmBody, List.length_append, List.length_cons, List.length_nil]
  omega

/-! ### a saved document -/

/-- The document `ts`, whose object streams are filled, is in the file. -/
structure SavedDoc (c : Codec) (r : Nat → Nat → Res Int) (F : Bytes) (ts : List WSection) (xs : List ReadSection) : Prop where
  zip : Zip (InFile c r F) ts xs
  fair : ∀ s ∈ ts, FairSection s
  size : F.length ≤ 9223372036854775807
  lengths : ∀ s ∈ ts, ∀ e ∈ s.entries, ∀ d body k m i, entryObject e = .stream d body → valueAt (b! "Length") d = some (.ref k m) →
    r k m = .ok i → ∃ x, DocHolds ts k m (.direct x) ∧ (x = .int i ∨ ∃ a p, x = .real a p ∧ a.tdiv (10 ^ p : Nat) = i)
  outside : ∀ s ∈ ts, ∀ e ∈ s.entries, ∀ d body k m, entryObject e = .stream d body → valueAt (b! "Length") d = some (.ref k m) →
    ∀ s' ∈ ts, ∀ e ∈ s'.entries, e.num = k → e.gen = m → ∀ sn i o, e.kind ≠ .compressed sn i o
  house : ∀ s ∈ ts, ∀ e ∈ s.entries, ∀ sn i o, e.kind = .compressed sn i o → ∃ h off d d1 body, NewestIn ts sn 0 s h ∧
    s.own ≠ some (sn, 0) ∧ h.kind = .used off (some (.stream d1 body)) ∧ Holdable (.dict d) ∧
    makeObjStm c d ((objStmMembers sn s.entries).map (·.2)) = .ok (.stream d1 body) ∧
    ∀ k m, valueAt (b! "Length") d1 = some (.ref k m) → ∀ s' ∈ ts, ∀ e ∈ s'.entries, e.num = k → e.gen = m →
      ∀ sn i o, e.kind ≠ .compressed sn i o
  object : ∀ s ∈ ts, ∀ e ∈ s.entries, ∀ sn i o, e.kind = .compressed sn i o → NewestIn ts e.num 0 s e ∧
    s.own ≠ some (e.num, e.gen) ∧ (writeBody o).length ≤ 2147483648

section
variable {c : Codec} {r : Nat → Nat → Res Int} {F : Bytes} {ts : List WSection} {xs : List ReadSection}

/-- Loading an object that is written at its offset, given that the entry Length of its header is understood. -/
theorem SavedDoc.used (hd : SavedDoc c r F ts xs) {n g : Nat} {s : WSection} {e : WEntry} (h : NewestIn ts n g s e)
    (ho : s.own ≠ some (e.num, e.gen)) {off : Int} {o : Option SObj} (hk : e.kind = .used off o) (f : Nat)
    (hl : ∀ d body, entryObject e = .stream d body → ∀ k m, valueAt (b! "Length") d = some (.ref k m) → ∀ i, r k m = .ok i →
      resolveIn c F xs f {} k m = .ok i) :
    ∃ o', freshLoad c F xs (f + 1) n g = .ok o' ∧ SameObject (entryObject e) o' ∧
      ∀ d body, o' = .stream d body → ∃ lo, valueAt (b! "Length") d = some lo ∧
        asInt (fileEnv F (resolveIn c F xs f {})) lo = .ok body.length := by
  obtain ⟨y, h1, h2⟩ := findRead_newest hd.zip h
  obtain ⟨m1, m2, m3, m4⟩ := h.mem
  obtain ⟨_, _, h3, _⟩ := h2
  have h3 := h3 ho
  have ob := (hd.fair s m1).objects e m2
  have num := (hd.fair s m1).numbers e m2
  rw [hk] at h3
  dsimp only at h3
  obtain ⟨pre, post, o', k1, k2, k3⟩ := h3
  have heo : entryObject e = o.getD (.direct .null) := by
    unfold entryObject; rw [hk]; cases o <;> rfl
  have st : Storable (o.getD (.direct .null)) := by
    rw [hk] at ob
    cases o with
    | none => exact Holdable.null
    | some o => exact ob o rfl
  rw [heo] at hl ⊢
  rw [m3, m4] at k2 num
  obtain ⟨o'', q1, q2, q3⟩ := loadAt_stored st num hd.size hl k2 k3
  refine ⟨o'', ?_, q2, q3⟩
  unfold freshLoad
  rw [step_used h1 k1 f (by rfl), q1]

/-- Loading an object whose entry is free. -/
theorem SavedDoc.free (hd : SavedDoc c r F ts xs) {n g : Nat} {s : WSection} {e : WEntry} (h : NewestIn ts n g s e)
    (ho : s.own ≠ some (e.num, e.gen)) {k : Nat} (hk : e.kind = .free k) (f : Nat) :
    freshLoad c F xs (f + 1) n g = .ok (.direct .null) := by
  obtain ⟨y, h1, h2⟩ := findRead_newest hd.zip h
  obtain ⟨_, _, h3, _⟩ := h2
  have h3 := h3 ho
  rw [hk] at h3
  dsimp only at h3
  obtain ⟨m, h3⟩ := h3
  unfold freshLoad
  rw [step_free h1 h3]

theorem sameObject_direct {x : Obj} {o : SObj} (h : SameObject (.direct x) o) : o = .direct (dropNulls x) := by cases h; rfl

/-- A reference to a number, once the number can be loaded. -/
theorem resolveIn_number {f k m : Nat} {i : Int} {x : Obj} (h : freshLoad c F xs f k m = .ok (.direct (dropNulls x)))
    (hx : x = .int i ∨ ∃ a p, x = .real a p ∧ a.tdiv (10 ^ p : Nat) = i) : resolveIn c F xs f {} k m = .ok i := by
  unfold freshLoad at h
  unfold resolveIn
  rw [h, ok_bind]
  rcases hx with rfl | ⟨a, p, rfl, rfl⟩ <;> rfl

/-- The objects in an object stream and how it is loaded. -/
theorem SavedDoc.content (hd : SavedDoc c r F ts xs) (hc : Faithful c) {s : WSection} (hs : s ∈ ts) {e : WEntry} (he : e ∈ s.entries)
    {sn i : Nat} {o : SObj} (hk : e.kind = .compressed sn i o) :
    ∃ (y : XEntry) (off : Int) (stm : SObj) (l : List (Nat × Obj)), findRead xs sn 0 = some y ∧ y.kind = .used off ∧
      (objStmMembers sn s.entries).map (·.2) = l.map (fun x => (x.1, SObj.direct x.2)) ∧
      (∀ f, freshLoad c F xs (f + 2) sn 0 = .ok stm) ∧
      ∀ q, objStmContent c q stm = .ok (l.map fun x => (x.1, dropNulls x.2)) := by
  obtain ⟨h, off, d, d1, body, k1, k2, k3, k4, k5, k6⟩ := hd.house s hs e he sn i o hk
  obtain ⟨y, y1, y2⟩ := findRead_newest hd.zip k1
  obtain ⟨m1, m2, m3, m4⟩ := k1.mem
  have ho : s.own ≠ some (h.num, h.gen) := by rw [m3, m4]; exact k2
  have y3 := y2.2.2.1 ho
  rw [k3] at y3
  obtain ⟨pre, post, o', y4, _⟩ := y3
  have fair := hd.fair s hs
  have mem : ∀ z ∈ objStmMembers sn s.entries, ∃ e' ∈ s.entries, e'.num = z.2.1 ∧ e'.kind = .compressed sn z.1 z.2.2 := by
    rintro ⟨i, n, o⟩ hz
    exact (objStmMembers_mem _ _ _ _ _).mp hz
  obtain ⟨l, hl⟩ := members_direct (objStmMembers sn s.entries) (fun z hz => by
    obtain ⟨e', he', _, hk'⟩ := mem z hz
    have := fair.objects e' he'
    rw [hk'] at this
    obtain ⟨_, _, _, _, x, hx, _⟩ := this
    exact ⟨x, hx⟩)
  have heo : entryObject h = .stream d1 body := by unfold entryObject; rw [k3]
  have load : ∀ f, ∃ o', freshLoad c F xs (f + 2) sn 0 = .ok o' ∧ SameObject (.stream d1 body) o' := by
    intro f
    obtain ⟨o', q1, q2, _⟩ := hd.used k1 ho k3 (f + 1) (fun d' body' hd' k m hkm i hi => by
      rw [heo] at hd'; injection hd' with e1 e2; subst e1; subst e2
      obtain ⟨x, x1, x2⟩ := hd.lengths s hs h m2 d1 body k m i heo hkm hi
      obtain ⟨s', e', w1, w2, w3⟩ := holds_newest x1
      obtain ⟨w4, w5, w6, w7⟩ := w1.mem
      have nc := k6 k m hkm s' w4 e' w5 w6 w7
      refine resolveIn_number (x := x) ?_ x2
      cases hkk : e'.kind with
      | free z =>
        have : entryObject e' = .direct .null := by unfold entryObject; rw [hkk]
        rw [this] at w3; injection w3 with w3; subst w3
        rw [hd.free w1 w2 hkk f]; rfl
      | compressed a b z => exact absurd hkk (nc a b z)
      | used off z =>
        obtain ⟨o', p1, p2, _⟩ := hd.used w1 w2 hkk f (fun d body q => by rw [w3] at q; cases q)
        rw [w3] at p2
        rw [p1, sameObject_direct p2])
    rw [heo] at q2
    exact ⟨o', q1, q2⟩
  obtain ⟨stm, s1, s2⟩ := load 0
  have s3 : ∀ f, freshLoad c F xs (f + 2) sn 0 = .ok stm := fun f => by
    obtain ⟨stm', t1, _⟩ := load f
    rw [t1, fresh_unique t1 s1]
  refine ⟨y, _, stm, l, y1, y4, hl, s3, fun q => ?_⟩
  have hmem : ∀ x ∈ l, Holdable x.2 ∧ x.1 ≤ 9223372036854775807 ∧ (writeObj x.2).length ≤ 2147483648 := by
    intro x hx
    have : (x.1, SObj.direct x.2) ∈ (objStmMembers sn s.entries).map (·.2) := by
      rw [hl]; exact List.mem_map.mpr ⟨x, hx, rfl⟩
    obtain ⟨z, hz, hzx⟩ := List.mem_map.mp this
    obtain ⟨e', he', hn', hk'⟩ := mem z hz
    have ob := fair.objects e' he'
    have nb := fair.numbers e' he'
    have sz := (hd.object s hs e' he' _ _ _ hk').2.2
    rw [hk'] at ob
    obtain ⟨_, _, _, _, x', hx', hh⟩ := ob
    obtain ⟨a, b, z⟩ := z
    injection hzx with e1 e2
    dsimp only at e1 e2 hx' hn' sz
    subst e1; subst e2
    injection hx' with hx'
    subst hx'
    exact ⟨hh, by omega, sz⟩
  cases s2 with
  | stream _ d2 _ h2 =>
    rw [hl] at k5
    refine C35_objects_read_back c hc q d d1 d2 body l k4 (fun x hx => ⟨(hmem x hx).1, (hmem x hx).2.1⟩) k5 ?_ h2
    refine objStmBody_length _ ?_ ?_
    · have h1 := objStmMembers_length sn s.entries
      have h2 := congrArg List.length hl
      have h3 := fair.count
      simp only [List.length_map] at h2 ⊢
      omega
    · intro x hx
      obtain ⟨x', hx', rfl⟩ := List.mem_map.mp hx
      exact (hmem x' hx').2

/-- The file is consistent in the sense of C63. -/
theorem SavedDoc.consistent (hd : SavedDoc c r F ts xs) (hc : Faithful c) : Consistent c F xs := by
  constructor
  · intro n g x sn i hx hk
    obtain ⟨s, e, h1, h2⟩ := newest_findRead hd.zip hx
    obtain ⟨m1, m2, m3, m4⟩ := h1.mem
    obtain ⟨o, hko⟩ := h2.2.2.2 sn i hk
    obtain ⟨y, off, _, _, y1, y2, _⟩ := hd.content hc m1 m2 hko
    have := (hd.fair s m1).objects e m2
    rw [hko] at this
    exact ⟨by rw [← m4]; exact this.2.1, y, off, y1, y2⟩
  · intro n g x sn i hx hk f stm l hl1 hl2 y hy
    obtain ⟨s, e, h1, h2⟩ := newest_findRead hd.zip hx
    obtain ⟨m1, m2, m3, m4⟩ := h1.mem
    obtain ⟨o, hko⟩ := h2.2.2.2 sn i hk
    obtain ⟨_, _, stm', l', _, _, q3, q4, q5⟩ := hd.content hc m1 m2 hko
    have := fresh_unique hl1 (q4 0)
    subst this
    rw [q5] at hl2
    injection hl2 with hl2
    subst hl2
    obtain ⟨z, hz, rfl⟩ := List.mem_map.mp hy
    have : (z.1, SObj.direct z.2) ∈ (objStmMembers sn s.entries).map (·.2) := by
      rw [q3]; exact List.mem_map.mpr ⟨z, hz, rfl⟩
    obtain ⟨⟨a, b, w⟩, hw, hwz⟩ := List.mem_map.mp this
    injection hwz with e1 e2
    subst e1
    obtain ⟨e', he', hn', hk'⟩ := (objStmMembers_mem _ _ _ _ _).mp hw
    obtain ⟨p1, p2, _⟩ := hd.object s m1 e' he' _ _ _ hk'
    obtain ⟨x', x1, x2⟩ := findRead_newest hd.zip p1
    have x3 := x2.2.2.1 p2
    rw [hk'] at x3
    exact ⟨x', a, by rw [← hn']; exact x1, x3⟩

/-- Loading an object of an object stream. -/
theorem SavedDoc.compressed (hd : SavedDoc c r F ts xs) (hc : Faithful c) {s : WSection} (hs : s ∈ ts) {e : WEntry} (he : e ∈ s.entries)
    {sn i : Nat} {x : Obj} (hk : e.kind = .compressed sn i (.direct x)) (f : Nat) :
    freshLoad c F xs (f + 3) e.num 0 = .ok (.direct (dropNulls x)) := by
  obtain ⟨_, _, stm, l, _, _, q3, q4, q5⟩ := hd.content hc hs he hk
  obtain ⟨p1, p2, _⟩ := hd.object s hs e he _ _ _ hk
  obtain ⟨y, y1, y2⟩ := findRead_newest hd.zip p1
  have y3 := y2.2.2.1 p2
  rw [hk] at y3
  rw [fresh_compressed (hd.consistent hc) y1 y3 (q4 f) (q5 _)]
  have key : ∀ w ∈ l.map (fun x => (x.1, dropNulls x.2)), w.1 = e.num → w = (e.num, dropNulls x) := by
    intro w hw hwn
    obtain ⟨z, hz, rfl⟩ := List.mem_map.mp hw
    have : (z.1, SObj.direct z.2) ∈ (objStmMembers sn s.entries).map (·.2) := by
      rw [q3]; exact List.mem_map.mpr ⟨z, hz, rfl⟩
    obtain ⟨⟨a, b, v⟩, hv, hvz⟩ := List.mem_map.mp this
    injection hvz with e1 e2
    dsimp only at e1 e2 hwn
    obtain ⟨e', he', hn', hk'⟩ := (objStmMembers_mem _ _ _ _ _).mp hv
    have hee : e' = e := by
      by_contra hne
      exact entry_unique (hd.fair s hs).sorted he' he hne (by omega)
    subst hee
    rw [hk] at hk'
    injection hk' with _ _ hk'
    rw [← hk'] at e2
    injection e2 with e2
    rw [hwn, ← e2]
  have hin : (e.num, dropNulls x) ∈ l.map (fun x => (x.1, dropNulls x.2)) := by
    have : (i, e.num, SObj.direct x) ∈ objStmMembers sn s.entries := (objStmMembers_mem _ _ _ _ _).mpr ⟨e, he, rfl, hk⟩
    have : (e.num, SObj.direct x) ∈ (objStmMembers sn s.entries).map (·.2) := List.mem_map.mpr ⟨_, this, rfl⟩
    rw [q3] at this
    obtain ⟨z, hz, he⟩ := List.mem_map.mp this
    injection he with e1 e2
    injection e2 with e2
    exact List.mem_map.mpr ⟨z, hz, by rw [e1, e2]⟩
  have : listed (l.map (fun x => (x.1, dropNulls x.2))) e.num = some (dropNulls x) := by
    unfold listed
    cases hf : (l.map (fun x => (x.1, dropNulls x.2))).reverse.find? (fun x => x.1 == e.num) with
    | none =>
      have := List.find?_eq_none.mp hf (e.num, dropNulls x) (by simpa using hin)
      simp at this
    | some w =>
      have h1 := List.mem_of_find?_eq_some hf
      have h2 := List.find?_some hf
      rw [key w (List.mem_reverse.mp h1) (by simpa using h2)]
      rfl
  rw [this]

/-- Loading a direct object. -/
theorem SavedDoc.direct (hd : SavedDoc c r F ts xs) (hc : Faithful c) {n g : Nat} {x : Obj} (h : DocHolds ts n g (.direct x)) (f : Nat) :
    freshLoad c F xs (f + 3) n g = .ok (.direct (dropNulls x)) := by
  obtain ⟨s', e', w1, w2, w3⟩ := holds_newest h
  obtain ⟨w4, w5, w6, w7⟩ := w1.mem
  cases hkk : e'.kind with
  | free z =>
    have : entryObject e' = .direct .null := by unfold entryObject; rw [hkk]
    rw [this] at w3; injection w3 with w3; subst w3
    rw [hd.free w1 w2 hkk (f + 2)]; rfl
  | compressed a b z =>
    have : entryObject e' = z := by unfold entryObject; rw [hkk]
    rw [this] at w3; subst w3
    have ob := (hd.fair s' w4).objects e' w5
    rw [hkk] at ob
    have := hd.compressed hc w4 w5 hkk f
    rw [w6] at this
    rw [← w7, ob.2.1]; exact this
  | used off z =>
    obtain ⟨o', p1, p2, _⟩ := hd.used w1 w2 hkk (f + 2) (fun d body q => by rw [w3] at q; cases q)
    rw [w3] at p2
    rw [p1, sameObject_direct p2]

/-- Loading any object. -/
theorem SavedDoc.load (hd : SavedDoc c r F ts xs) (hc : Faithful c) {n g : Nat} {o : SObj} (h : DocHolds ts n g o) (f : Nat) :
    ∃ o', freshLoad c F xs (f + 4) n g = .ok o' ∧ SameObject o o' ∧
      ∀ d body, o' = .stream d body → ∃ lo, valueAt (b! "Length") d = some lo ∧
        asInt (fileEnv F (resolveIn c F xs (f + 3) {})) lo = .ok body.length := by
  cases o with
  | direct x => exact ⟨_, hd.direct hc h (f + 1), .direct x, fun d body q => by cases q⟩
  | stream d body =>
    obtain ⟨s, e, w1, w2, w3⟩ := holds_newest h
    obtain ⟨w4, w5, w6, w7⟩ := w1.mem
    cases hk : e.kind with
    | free z => unfold entryObject at w3; rw [hk] at w3; cases w3
    | compressed a b z =>
      have ob := (hd.fair s w4).objects e w5
      rw [hk] at ob
      obtain ⟨_, _, _, _, x, rfl, _⟩ := ob
      unfold entryObject at w3; rw [hk] at w3; cases w3
    | used off z =>
      rw [← w3]
      exact hd.used w1 w2 hk (f + 3) fun d' body' hd' k m hkm i hi => by
        obtain ⟨x, x1, x2⟩ := hd.lengths s w4 e w5 d' body' k m i hd' hkm hi
        exact resolveIn_number (hd.direct hc x1 f) x2

/-- The Length of every stream of the file is found without moving the reader. -/
theorem SavedDoc.plain (hd : SavedDoc c r F ts xs) (hc : Faithful c) (hown : OwnLengths c F ts xs) : PlainLengths c F xs := by
  have key : ∀ n g x off, findRead xs n g = some x → x.kind = .used off → ∀ d data k m, RefLengthAt c F xs off n g d data k m →
      (∀ s' ∈ ts, ∀ e ∈ s'.entries, e.num = k → e.gen = m → ∀ sn i o, e.kind ≠ .compressed sn i o) ∧
      ∃ l f : Nat, resolveIn c F xs f {} k m = .ok l ∧ ∃ rest, F.drop (data + l) = b! "endstream" ++ (b! "\nendobj" ++ rest) := by
    rintro n g x off hf hk d data k m hr
    obtain ⟨s, e, h1, h2⟩ := newest_findRead hd.zip hf
    obtain ⟨m1, m2, rfl, rfl⟩ := h1.mem
    by_cases ho : s.own = some (e.num, e.gen)
    · exact absurd hr (hown s m1 _ _ ho x off hf hk d data k m)
    · have h3 := h2.2.2.1 ho
      have ob := (hd.fair s m1).objects e m2
      have num := (hd.fair s m1).numbers e m2
      obtain ⟨f, tn, tg, rr, hs, _, _, hl⟩ := hr
      cases hek : e.kind with
      | free _ => rw [hek] at h3; obtain ⟨_, h3⟩ := h3; rw [hk] at h3; cases h3
      | compressed a b o => rw [hek] at h3; dsimp only at h3; rw [hk] at h3; cases h3
      | used off' o =>
        rw [hek] at h3 ob
        dsimp only at h3
        obtain ⟨pre, post, o', k1, k2, k3⟩ := h3
        rw [hk] at k1; injection k1 with k1; subst k1
        have heo : entryObject e = o.getD (.direct .null) := by
          unfold entryObject; rw [hek]; cases o <;> rfl
        have st : Storable (o.getD (.direct .null)) := by
          cases o with
          | none => exact Holdable.null
          | some o => exact ob o rfl
        generalize o.getD (.direct .null) = o0 at k3 heo st
        have seek : ∀ q, (fileEnv F q).seek (pre.length : Int) = F.drop pre.length := fun q => by
          unfold Env.seek; rw [if_neg (by omega)]; rfl
        cases k3 with
        | direct o =>
          exfalso
          obtain ⟨p, p1, p2⟩ := parse_written (fileEnv F (resolveIn c F xs f {})) e.num e.gen (.direct o) pre post k2 num.1 num.2 st
          rw [seek] at p1
          have := head_parsed (e := fileEnv F (resolveIn c F xs f {})) rfl hs hl p1
          dsimp only at p2
          rw [p2] at this; cases this
        | stream d0 d' body hrec =>
          have hb : body.length ≤ F.length := by rw [k2]; simp [writeObject, writeBody]; omega
          obtain ⟨q1, q2, lo, q3, q4, q5⟩ := recalcLength_spec hrec st (by have := hd.size; omega)
          have hsort' := (holdable_dict q1).1
          have hlo : asInt (fileEnv F (resolveIn c F xs (f + 3) {})) lo = .ok body.length := by
            cases lo with
            | ref k m =>
              rcases q5 with q5 | q5
              · cases q5
              · obtain ⟨x, x1, x2⟩ := hd.lengths s m1 e m2 d0 body k m _ heo (by rw [valueAt_eq]; exact q5) q4
                exact resolveIn_number (hd.direct hc x1 f) x2
            | _ => exact q4
          obtain ⟨p, p1, p2, _⟩ := parse_written (fileEnv F (resolveIn c F xs (f + 3) {})) e.num e.gen (.stream d' body) pre post k2
            num.1 num.2 ⟨q1, lo, q3, Or.inl rfl, by rw [← hlo]; exact asInt_env _ _ rfl _⟩
          rw [seek] at p1
          have le : Env.Le (fileEnv F (resolveIn c F xs f {})) (fileEnv F (resolveIn c F xs (f + 3) {})) :=
            ⟨rfl, rfl, resolveIn_le (fun n g o h => fresh_mono (by omega) h)⟩
          have := head_parsed (e := fileEnv F (resolveIn c F xs (f + 3) {})) rfl (streamHead_le le hs) hl p1
          rw [p2] at this
          injection this with e1 e2
          subst e1; subst e2
          have hfind := dropNullsEntries_find q3 (by rintro rfl; cases q4) hsort'
          rw [← valueAt_eq, hl] at hfind
          injection hfind with hfind
          have hlor : lo = .ref k m := by
            cases lo <;> simp only [dropNulls] at hfind <;> first | exact hfind.symm | cases hfind
          subst hlor
          rcases q5 with q5 | q5
          · cases q5
          refine ⟨hd.outside s m1 e m2 d0 body k m heo (by rw [valueAt_eq]; exact q5), body.length, f + 3, hlo, b! "\n" ++ post, ?_⟩
          have e2 : F = (pre ++ (natDec e.num ++ b! " " ++ natDec e.gen ++ b! " obj\n" ++ writeObj (.dict d') ++ b! "\nstream\n" ++ body)) ++
            (b! "endstream" ++ (b! "\nendobj" ++ (b! "\n" ++ post))) := by rw [k2]; simp [writeObject, writeBody]
          rw [e2, List.drop_left' (by simp [bodyStart]; omega)]
  constructor
  · intro n g x off hf hk d data k m hr y hy sn i hyk
    obtain ⟨s, e, h1, h2⟩ := newest_findRead hd.zip hy
    obtain ⟨m1, m2, m3, m4⟩ := h1.mem
    obtain ⟨o, hko⟩ := h2.2.2.2 sn i hyk
    exact (key n g x off hf hk d data k m hr).1 s m1 e m2 m3 m4 sn i o hko
  · intro n g x off hf hk d data k m hr f l hl
    obtain ⟨l', f', k1, rest, k2⟩ := (key n g x off hf hk d data k m hr).2
    have : l = l' := by
      have a1 := resolveIn_le (c := c) (file := F) (secs := xs) (fun n g o h => fresh_mono (Nat.le_max_left f f') h) k m l hl
      have a2 := resolveIn_le (c := c) (file := F) (secs := xs) (fun n g o h => fresh_mono (Nat.le_max_right f f') h) k m l' k1
      rw [a1] at a2; injection a2
    subst this
    have kw := skip_keyword (p := []) .nil 0x65 (b! "ndstream") (b! "\nendobj" ++ rest) (by decide) (by decide) (by decide) (ends_lf _)
    refine ⟨⟨dictFind parserKeywords (b! "endstream"), b! "endstream"⟩, b! "\nendobj" ++ rest, ?_, by decide, by omega⟩
    rw [show ((data : Int) + (l' : Int)).toNat = data + l' by omega, k2]; exact kw
end

end VPdf
