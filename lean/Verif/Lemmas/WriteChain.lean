import Verif.Lemmas.WriteSection
/-
  A chain of sections is read back.
-/
namespace VPdf
open Spec

theorem writeSection_extends {c : Codec} {resolve : Nat → Nat → Res Int} {out out' : Bytes} {prev : Option Int}
    {s s' : WSection} {off : Int} (h : writeSection c resolve out prev s = .ok (out', off, s')) :
    ∃ t, out' = out ++ t ∧ t ≠ [] := by
  rw [writeSection] at h
  obtain ⟨s1, h1, h⟩ := except_bind_ok h
  obtain ⟨t, w1, w2, w3⟩ := writeObjects_spec s1.own s1.entries out
  rcases hwo : writeObjects s1.own out s1.entries with ⟨o1, es3⟩
  rw [hwo] at h w1
  dsimp only at h w1
  subst w1
  obtain ⟨⟨out2, off2⟩, hx, h⟩ := except_bind_ok h
  injection h with h; injection h with e1 h
  subst e1
  rw [writeXref] at hx
  dsimp only at hx
  cases ho : s1.own with
  | none =>
    rw [ho] at hx
    dsimp only at hx
    injection hx with hx; injection hx with x1 x2
    refine ⟨t ++ b! "\n" ++ writeXrefTable (usedIn es3) (es3.map WEntry.plain) s1.trailer ++
      writeXrefOffset (out ++ t ++ b! "\n").length, ?_, by simp⟩
    rw [← x1]; simp
  | some ng =>
    rw [ho] at hx
    dsimp only at hx
    obtain ⟨data, d1, hx⟩ := except_bind_ok hx
    obtain ⟨body, d2, hx⟩ := except_bind_ok hx
    obtain ⟨dd, d3, hx⟩ := except_bind_ok hx
    injection hx with hx; injection hx with x1 x2
    refine ⟨t ++ writeObject ng.1 ng.2 (.stream dd body) ++ writeXrefOffset (out ++ t).length, ?_, by simp [writeXrefOffset]⟩
    rw [← x1]; simp

theorem writeChain_extends {c : Codec} {resolve : Nat → Nat → Res Int} (ss : List WSection) :
    ∀ {out out' : Bytes} {prev : Option Int}, writeChain c resolve out prev ss = .ok out' → ∃ t, out' = out ++ t := by
  induction ss with
  | nil => intro out out' prev h; injection h with h; exact ⟨[], by simp [h]⟩
  | cons s ss ih =>
    intro out out' prev h
    rw [writeChain] at h
    obtain ⟨⟨o1, off, s'⟩, h1, h⟩ := except_bind_ok h
    obtain ⟨t, rfl, _⟩ := writeSection_extends h1
    obtain ⟨t', rfl⟩ := ih h
    exact ⟨t ++ t', by simp⟩

/-- The way sections of the file `F` are read. -/
abbrev sectionOf (c : Codec) (F : Bytes) (o : Int) : Res ReadSection :=
  readSection (openEnv F) (readStreamSection c (openEnv F)) o

/-- The section `s` of the document is read from `F` as `x`. -/
def InFile (c : Codec) (resolve : Nat → Nat → Res Int) (F : Bytes) (s : WSection) (x : ReadSection) : Prop :=
  ∃ off prev, Written c resolve F off prev s x

/-- The invariant of the loop over sections: what has been written so far ends with the section at `prev`, from which all
of them are reached. -/
def ChainInv (c : Codec) (resolve : Nat → Nat → Res Int) (out : Bytes) (prev : Option Int) (olds : List WSection) : Prop :=
  EndsWhite out ∧ olds.length ≤ out.length ∧
  match prev with
  | none => olds = []
  | some p => (0 ≤ p ∧ p < out.length) ∧ (∃ q, EndsWhite q ∧ out = q ++ writeXrefOffset p) ∧
      ∀ more, ∃ xs, Sections (SectionAt (openEnv (out ++ more)) (sectionOf c (out ++ more))) p xs ∧
        Zip (InFile c resolve (out ++ more)) olds xs

theorem prevOffset_int {e : Env} {d : Dict} {p : Int} (h : mapFind (b! "Prev") d = some (.int p)) :
    prevOffset e d = .ok (some p) := by rw [prevOffset, h]; rfl

theorem prevOffset_none {e : Env} {d : Dict} (h : mapFind (b! "Prev") d = none) : prevOffset e d = .ok none := by
  rw [prevOffset, h]

theorem endsWhite_offset (q : Bytes) (p : Int) : EndsWhite (q ++ writeXrefOffset p) := by
  have : q ++ writeXrefOffset p = (q ++ (b! "startxref\n" ++ intDec p ++ b! "\n%%EOF")) ++ b! "\n" := by simp [writeXrefOffset]
  rw [this]; exact endsWhite_lf _

theorem writeChain_spec {c : Codec} (hc : Faithful c) {resolve : Nat → Nat → Res Int} (ss : List WSection) :
    ∀ {out out' : Bytes} {prev : Option Int} {olds : List WSection}, ChainInv c resolve out prev olds →
      (∀ s ∈ ss, FairSection s) → (prev = none → ∀ s, ss.head? = some s → valueAt (b! "Prev") s.trailer = none) →
      writeChain c resolve out prev (ss.map cloneSection) = .ok out' → out'.length ≤ 9223372036854775807 →
      ∃ prev', ChainInv c resolve out' prev' (ss.reverse ++ olds) := by
  induction ss with
  | nil =>
    intro out out' prev olds hi _ _ h _
    injection h with h; subst h
    exact ⟨prev, hi⟩
  | cons s ss ih =>
    intro out out' prev olds hi hg hp h hlen
    rw [List.map_cons, writeChain] at h
    obtain ⟨⟨o1, off, s'⟩, h1, h⟩ := except_bind_ok h
    obtain ⟨t, ht, htne⟩ := writeSection_extends h1
    obtain ⟨t', ht'⟩ := writeChain_extends _ h
    dsimp only at ht' h
    have hlen1 : o1.length ≤ out'.length := by rw [ht']; simp
    have hlt : 1 ≤ t.length := by cases t with | nil => exact absurd rfl htne | cons _ _ => simp
    have hlen0 : out.length + 1 ≤ o1.length := by rw [ht]; simp; omega
    obtain ⟨i1, i2, i3⟩ := hi
    have hprev : ∀ p, prev = some p → 0 ≤ p ∧ p ≤ 9223372036854775807 := by
      rintro p rfl
      obtain ⟨i3, _⟩ := i3
      omega
    obtain ⟨_, ⟨q, hq, hqo⟩, hoff, hwr⟩ := writeSection_spec hc (hg s (by simp)) hprev h1 (by omega) i1
    have inv : ChainInv c resolve o1 (some off) (s :: olds) := by
      refine ⟨by rw [hqo]; exact endsWhite_offset _ _, by simp; omega, hoff, ⟨q, hq, hqo⟩, fun more => ?_⟩
      obtain ⟨x, hx⟩ := hwr more
      cases prev with
      | none =>
        dsimp only at i3; subst i3
        refine ⟨[x], .last _ _ ⟨hx.read, prevOffset_none ?_⟩, .cons _ _ _ _ ⟨_, _, hx⟩ .nil⟩
        rw [hx.prevEntry]
        show mapFind (b! "Prev") (dropNullsEntries s.trailer) = none
        rw [dropNullsEntries_value (holdable_dict (hg s (by simp)).trailer).1, ← valueAt_eq, hp rfl s rfl]
      | some p =>
        obtain ⟨_, _, i4⟩ := i3
        obtain ⟨xs, k1, k2⟩ := i4 (t ++ more)
        rw [← List.append_assoc, ← ht] at k1 k2
        exact ⟨x :: xs, .more _ p _ _ ⟨hx.read, prevOffset_int hx.prevEntry⟩ k1, .cons _ _ _ _ ⟨_, _, hx⟩ k2⟩
    obtain ⟨prev', hinv⟩ := ih inv (fun s hs => hg s (by simp [hs])) (by simp) h hlen
    exact ⟨prev', by simpa using hinv⟩

/-! ### objects of the saved file -/

/-- As `InFile`, for sections written with different ways to follow references. -/
def InFileBy (c : Codec) (R : WSection → (Nat → Nat → Res Int) → Prop) (F : Bytes) (s : WSection) (x : ReadSection) : Prop :=
  ∃ resolve, R s resolve ∧ InFile c resolve F s x

/-- The entry a reader finds for an object of the document. -/
theorem findRead_holds {c : Codec} {R : WSection → (Nat → Nat → Res Int) → Prop} {F : Bytes} {ss : List WSection} {n g : Nat}
    {o : SObj} (h : DocHolds ss n g o) : ∀ {xs : List ReadSection}, Zip (InFileBy c R F) ss xs →
    ∃ y s e resolve, findRead xs n g = some y ∧ s ∈ ss ∧ R s resolve ∧ e ∈ s.entries ∧ e.num = n ∧ e.gen = g ∧
      s.own ≠ some (e.num, e.gen) ∧ Stored resolve F s.own e y ∧ entryObject e = o := by
  induction h with
  | here s ss e he hown =>
    intro xs hz
    cases hz with
    | cons _ x _ xs hx hz =>
      obtain ⟨r, hr, off, prev, w⟩ := hx
      obtain ⟨y, hy, hst⟩ := w.there e he
      refine ⟨y, s, e, r, ?_, by simp, hr, he, rfl, rfl, hown, hst, rfl⟩
      have := find_of_mem w.distinct hy
      rw [hst.1] at this
      rw [findRead, this]; dsimp only
      rw [if_pos hst.2.1]
  | older s ss n g o hno _ ih =>
    intro xs hz
    cases hz with
    | cons _ x _ xs hx hz =>
      obtain ⟨y, s', e, r, h1, h2, h3⟩ := ih hz
      obtain ⟨_, _, off, prev, w⟩ := hx
      refine ⟨y, s', e, r, ?_, by simp [h2], h3⟩
      rw [findRead]
      cases hf : EntrySet.find n x.1 with
      | none => exact h1
      | some z =>
        dsimp only
        obtain ⟨z1, z2⟩ := find_some hf
        rw [if_neg]
        · exact h1
        · intro hgz
          obtain ⟨e', he', e1, e2⟩ := w.only z z1
          exact hno e' he' ⟨by omega, by omega⟩

theorem findRead_lacks {c : Codec} {R : WSection → (Nat → Nat → Res Int) → Prop} {F : Bytes} {ss : List WSection} {n g : Nat} :
    ∀ {xs : List ReadSection}, Zip (InFileBy c R F) ss xs → DocLacks ss n g → findRead xs n g = none := by
  intro xs hz
  induction hz with
  | nil => intro _; rfl
  | cons s x ss xs hx _ ih =>
    intro hl
    obtain ⟨_, _, off, prev, w⟩ := hx
    rw [findRead]
    have ih := ih (fun s' hs' => hl s' (by simp [hs']))
    cases hf : EntrySet.find n x.1 with
    | none => exact ih
    | some z =>
      dsimp only
      obtain ⟨z1, z2⟩ := find_some hf
      rw [if_neg]
      · exact ih
      · intro hgz
        obtain ⟨e', he', e1, e2⟩ := w.only z z1
        exact hl s (by simp) e' he' ⟨by omega, by omega⟩

/-- The function by which `loadObject` follows references to numbers. -/
def loadInt (file : Bytes) (secs : List ReadSection) (f n g : Nat) : Res Int := do
  match ← loadObject file secs f n g with
  | .direct (.int i) => pure i
  | .direct (.real m p) => pure (m.tdiv (10 ^ p : Nat))
  | _ => throw .conversion

theorem loadObject_succ (file : Bytes) (secs : List ReadSection) (f n g : Nat) : loadObject file secs (f + 1) n g =
    match findRead secs n g with
    | none => .ok (.direct .null)
    | some e =>
      match e.kind with
      | .free _ => .ok (.direct .null)
      | .used off => loadAt (fileEnv file (loadInt file secs f)) n g off
      | .compressed _ _ => .error .notSupported := by
  rw [loadObject]; rfl

theorem good_entry {s : WSection} (good : GoodSection s) {e : WEntry} (he : e ∈ s.entries) :
    Storable (entryObject e) ∧ ∀ st i o, e.kind ≠ .compressed st i o := by
  have := good.objects e he
  obtain ⟨n, g, k⟩ := e
  cases k with
  | free x => exact ⟨Holdable.null, by simp⟩
  | used off o =>
    cases o with
    | none => exact ⟨Holdable.null, by simp⟩
    | some o => exact ⟨this o rfl, by simp⟩
  | compressed st i o => exact this.elim

/-- An object that was written, and is then loaded with any way `r` to follow references, given that the entry Length of its
header is understood. -/
theorem loadAt_stored {F : Bytes} {resolve r : Nat → Nat → Res Int} {n g : Nat} {o : SObj} (st : Storable o)
    (num : n ≤ 9223372036854775807 ∧ g ≤ 65535) (hlen : F.length ≤ 9223372036854775807)
    (hlenr : ∀ d body, o = .stream d body → ∀ k m, valueAt (b! "Length") d = some (.ref k m) → ∀ i, resolve k m = .ok i →
      r k m = .ok i) {pre post : Bytes} {o' : SObj} (k2 : F = pre ++ (writeObject n g o' ++ post)) (k3 : Updated resolve o o') :
    ∃ o'', loadAt (fileEnv F r) n g pre.length = .ok o'' ∧ SameObject o o'' ∧
      ∀ d body, o'' = .stream d body → ∃ lo, valueAt (b! "Length") d = some lo ∧ asInt (fileEnv F r) lo = .ok body.length := by
  cases k3 with
  | direct o =>
    refine ⟨_, loadAt_written (fileEnv F r) _ _ (.direct o) pre post k2 num.1 num.2 st, .direct o, ?_⟩
    intro d body hd; cases hd
  | stream d d' body hr =>
    have hb : body.length ≤ F.length := by rw [k2]; simp [writeObject, writeBody]; omega
    obtain ⟨q1, q2, lo, q3, q4, q5⟩ := recalcLength_spec hr st (by omega)
    have hsort := (holdable_dict st).1
    have hsort' := (holdable_dict q1).1
    have hlo : asInt (fileEnv F r) lo = .ok body.length := by
      cases lo with
      | ref k m =>
        rcases q5 with q5 | q5
        · cases q5
        · exact hlenr d body rfl k m (by rw [valueAt_eq]; exact q5) _ q4
      | _ => exact q4
    refine ⟨_, loadAt_written (fileEnv F r) _ _ (.stream d' body) pre post k2 num.1 num.2
      ⟨q1, lo, q3, Or.inl rfl, ?_⟩, .stream d _ body ?_, ?_⟩
    · rw [← hlo]; exact asInt_env _ _ rfl _
    · intro k hk
      rw [valueAt_eq, valueAt_eq]
      exact dropNullsEntries_congr hsort hsort' (q2 k hk)
    · intro d1 body1 he
      injection he with he1 he2
      subst he1; subst he2
      refine ⟨dropNulls lo, ?_, by rw [dropNulls_asInt]; exact hlo⟩
      rw [valueAt_eq]
      exact dropNullsEntries_find q3 (by rintro rfl; cases q4) hsort'

/-- Loading an object, given that the entry Length of its header is understood. -/
theorem load_holds {c : Codec} {R : WSection → (Nat → Nat → Res Int) → Prop} {F : Bytes} {ss : List WSection}
    {xs : List ReadSection} (hz : Zip (InFileBy c R F) ss xs) (hg : ∀ s ∈ ss, GoodSection s) (hlen : F.length ≤ 9223372036854775807) {n g : Nat} {o : SObj}
    (h : DocHolds ss n g o) (f : Nat)
    (hlenr : ∀ s ∈ ss, ∀ e ∈ s.entries, ∀ resolve, R s resolve → ∀ d body, entryObject e = o → o = .stream d body → ∀ k m,
      valueAt (b! "Length") d = some (.ref k m) → ∀ i, resolve k m = .ok i → loadInt F xs f k m = .ok i) :
    ∃ o', loadObject F xs (f + 1) n g = .ok o' ∧ SameObject o o' ∧
      ∀ d body, o' = .stream d body → ∃ lo, valueAt (b! "Length") d = some lo ∧
        asInt (fileEnv F (loadInt F xs f)) lo = .ok body.length := by
  obtain ⟨y, s, e, resolve, h1, h2, hR, h3, rfl, rfl, h4, h5, rfl⟩ := findRead_holds h hz
  have hlenr := fun d body => hlenr s h2 e h3 resolve hR d body rfl
  obtain ⟨st, nc⟩ := good_entry (hg s h2) h3
  have num := (hg s h2).numbers e h3
  rw [loadObject_succ, h1]
  dsimp only
  obtain ⟨_, _, h5, _⟩ := h5
  have h5 := h5 h4
  have used : ∀ (o : SObj), entryObject e = o → (∃ pre post o', y.kind = .used pre.length ∧
      F = pre ++ (writeObject e.num e.gen o' ++ post) ∧ Updated resolve o o') →
      ∃ o', (match y.kind with
      | .free _ => .ok (.direct .null)
      | .used off => loadAt (fileEnv F (loadInt F xs f)) e.num e.gen off
      | .compressed _ _ => .error .notSupported : Res SObj) = .ok o' ∧ SameObject o o' ∧
      ∀ d body, o' = .stream d body → ∃ lo, valueAt (b! "Length") d = some lo ∧
        asInt (fileEnv F (loadInt F xs f)) lo = .ok body.length := by
    rintro o ho ⟨pre, post, o', k1, k2, k3⟩
    rw [k1]
    rw [ho] at st hlenr
    exact loadAt_stored st num hlen hlenr k2 k3
  obtain ⟨n, g, k⟩ := e
  cases k with
  | free x =>
    obtain ⟨m, h5⟩ := h5
    rw [h5]
    refine ⟨_, rfl, .direct .null, ?_⟩
    intro d body hd; cases hd
  | used off o =>
    cases o with
    | none => exact used _ rfl h5
    | some o => exact used _ rfl h5
  | compressed _ _ _ => exact absurd rfl (nc _ _ _)

end VPdf
