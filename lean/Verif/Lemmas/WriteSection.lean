import Verif.Lemmas.Writer
import Verif.Lemmas.Clone
import Verif.Props.XrefTable
import Verif.Props.XrefStream
import Verif.Props.Opening
/-
  A written section is read back, whatever follows it in the file.
-/
namespace VPdf
open Spec

/-- Two lists of the same length with related members. -/
inductive Zip {α β : Type} (R : α → β → Prop) : List α → List β → Prop where
  | nil : Zip R [] []
  | cons (a : α) (b : β) (l : List α) (m : List β) : R a b → Zip R l m → Zip R (a :: l) (b :: m)

namespace Zip
variable {α β γ : Type} {R : α → β → Prop}

theorem left {l : List α} {m : List β} (h : Zip R l m) : ∀ a ∈ l, ∃ b ∈ m, R a b := by
  induction h with
  | nil => simp
  | cons a b l m hab _ ih =>
    intro x hx
    rcases List.mem_cons.mp hx with rfl | hx
    · exact ⟨b, by simp, hab⟩
    · obtain ⟨y, hy, hxy⟩ := ih x hx; exact ⟨y, by simp [hy], hxy⟩

theorem right {l : List α} {m : List β} (h : Zip R l m) : ∀ b ∈ m, ∃ a ∈ l, R a b := by
  induction h with
  | nil => simp
  | cons a b l m hab _ ih =>
    intro x hx
    rcases List.mem_cons.mp hx with rfl | hx
    · exact ⟨a, by simp, hab⟩
    · obtain ⟨y, hy, hxy⟩ := ih x hx; exact ⟨y, by simp [hy], hxy⟩

theorem length {l : List α} {m : List β} (h : Zip R l m) : l.length = m.length := by
  induction h with
  | nil => rfl
  | cons a b l m _ _ ih => simp [ih]

theorem map_eq {l : List α} {m : List β} (h : Zip R l m) {f : α → γ} {g : β → γ} (hfg : ∀ a b, R a b → g b = f a) :
    m.map g = l.map f := by
  induction h with
  | nil => rfl
  | cons a b l m hab _ ih => simp [ih, hfg a b hab]

theorem imp {S : α → β → Prop} {l : List α} {m : List β} (h : Zip R l m) (hi : ∀ a b, R a b → S a b) : Zip S l m := by
  induction h with
  | nil => exact .nil
  | cons a b l m hab _ ih => exact .cons _ _ _ _ (hi _ _ hab) ih

theorem of_map {l : List α} (f : α → β) (h : ∀ a ∈ l, R a (f a)) : Zip R l (l.map f) := by
  induction l with
  | nil => exact .nil
  | cons a l ih => exact .cons _ _ _ _ (h a (by simp)) (ih fun x hx => h x (by simp [hx]))

theorem comp {S : β → γ → Prop} {l : List α} {m : List β} {k : List γ} (h : Zip R l m) (h' : Zip S m k) :
    Zip (fun a c => ∃ b, R a b ∧ S b c) l k := by
  induction h generalizing k with
  | nil => cases h'; exact .nil
  | cons a b l m hab _ ih =>
    cases h' with
    | cons _ c _ k hbc h' => exact .cons _ _ _ _ ⟨b, hab, hbc⟩ (ih h')
end Zip

/-- The object written for an object of the document. -/
inductive Updated (resolve : Nat → Nat → Res Int) : SObj → SObj → Prop where
  | direct (o : Obj) : Updated resolve (.direct o) (.direct o)
  | stream (d d' : Dict) (body : Bytes) : recalcLength resolve body.length d = .ok d' →
      Updated resolve (.stream d body) (.stream d' body)

/-- An entry before and after `recalcEntries`. -/
def Recalced (resolve : Nat → Nat → Res Int) (own : Option (Nat × Nat)) (e e' : WEntry) : Prop :=
  e'.num = e.num ∧ e'.gen = e.gen ∧ if own = some (e.num, e.gen) then e' = e else
    match e.kind with
    | .used off (some o) => ∃ o', e'.kind = .used off (some o') ∧ Updated resolve o o'
    | k => e'.kind = k

theorem recalcEntry_spec {resolve : Nat → Nat → Res Int} {own : Option (Nat × Nat)} {e e' : WEntry}
    (h : recalcEntry resolve own e = .ok e') : Recalced resolve own e e' := by
  rw [recalcEntry] at h
  by_cases ho : own = some (e.num, e.gen)
  · rw [if_pos ho] at h; injection h with h; subst h
    exact ⟨rfl, rfl, by rw [if_pos ho]⟩
  · rw [if_neg ho] at h
    obtain ⟨n, g, k⟩ := e
    unfold Recalced
    rw [if_neg ho]
    cases k with
    | free x => injection h with h; subst h; exact ⟨rfl, rfl, rfl⟩
    | used off o =>
      cases o with
      | none => injection h with h; subst h; exact ⟨rfl, rfl, rfl⟩
      | some o =>
        cases o with
        | direct o => injection h with h; subst h; exact ⟨rfl, rfl, _, rfl, .direct o⟩
        | stream d body =>
          dsimp only at h
          cases hr : recalcLength resolve body.length d with
          | error x => rw [hr] at h; cases h
          | ok d' =>
            rw [hr, ok_bind] at h
            injection h with h; subst h
            exact ⟨rfl, rfl, _, rfl, .stream d d' body hr⟩
    | compressed s i o =>
      cases o with
      | direct o => injection h with h; subst h; exact ⟨rfl, rfl, rfl⟩
      | stream d body => cases h

theorem recalcEntries_spec {resolve : Nat → Nat → Res Int} {own : Option (Nat × Nat)} {es es' : List WEntry}
    (h : recalcEntries resolve own es = .ok es') : Zip (Recalced resolve own) es es' := by
  induction es generalizing es' with
  | nil => injection h with h; subst h; exact .nil
  | cons e es ih =>
    rw [recalcEntries] at h
    cases h1 : recalcEntry resolve own e with
    | error x => rw [h1] at h; cases h
    | ok a =>
      rw [h1, ok_bind] at h
      cases h2 : recalcEntries resolve own es with
      | error x => rw [h2] at h; cases h
      | ok b =>
        rw [h2, ok_bind] at h
        injection h with h; subst h
        exact .cons _ _ _ _ (recalcEntry_spec h1) (ih h2)

/-- An entry before and after `writeObjects`, whose output is `out`. -/
def Placed (out : Bytes) (own : Option (Nat × Nat)) (e e' : WEntry) : Prop :=
  e'.num = e.num ∧ e'.gen = e.gen ∧ if own = some (e.num, e.gen) then e' = e else
    match e.kind with
    | .used _ (some o) => ∃ pre post, out = pre ++ (writeObject e.num e.gen o ++ post) ∧ e'.kind = .used pre.length (some o)
    | k => e'.kind = k

theorem Placed.mono {out more : Bytes} {own : Option (Nat × Nat)} {e e' : WEntry} (h : Placed out own e e') :
    Placed (out ++ more) own e e' := by
  unfold Placed at h ⊢
  obtain ⟨h1, h2, h3⟩ := h
  refine ⟨h1, h2, ?_⟩
  by_cases ho : own = some (e.num, e.gen)
  · rw [if_pos ho] at h3 ⊢; exact h3
  · rw [if_neg ho] at h3 ⊢
    obtain ⟨n, g, k⟩ := e
    cases k with
    | used off o =>
      cases o with
      | none => exact h3
      | some o =>
        obtain ⟨pre, post, h4, h5⟩ := h3
        exact ⟨pre, post ++ more, by rw [h4]; simp, h5⟩
    | _ => exact h3

theorem endsWhite_lf (a : Bytes) : EndsWhite (a ++ b! "\n") := by
  intro c hc
  simp at hc
  subst hc; decide

theorem endsWhite_object (out : Bytes) (n g : Nat) (o : SObj) : EndsWhite (out ++ writeObject n g o) := by
  have : out ++ writeObject n g o = (out ++ (natDec n ++ b! " " ++ natDec g ++ b! " obj\n" ++ writeBody o ++ b! "\nendobj")) ++ b! "\n" := by
    simp [writeObject]
  rw [this]; exact endsWhite_lf _

theorem writeObjects_spec (own : Option (Nat × Nat)) (es : List WEntry) : ∀ (out : Bytes), ∃ t,
    (writeObjects own out es).1 = out ++ t ∧ (EndsWhite out → EndsWhite (out ++ t)) ∧
      Zip (Placed (out ++ t) own) es (writeObjects own out es).2 := by
  induction es with
  | nil => intro out; exact ⟨[], by simp [writeObjects], by simp, .nil⟩
  | cons e es ih =>
    intro out
    have stay : ∀ (r : Bytes × List WEntry), writeObjects own out (e :: es) = ((writeObjects own out es).1, e :: (writeObjects own out es).2) →
        (∀ F, Placed F own e e) → ∃ t, (writeObjects own out (e :: es)).1 = out ++ t ∧ (EndsWhite out → EndsWhite (out ++ t)) ∧
      Zip (Placed (out ++ t) own) (e :: es) (writeObjects own out (e :: es)).2 := by
      intro r h hp
      obtain ⟨t, h1, h2, h3⟩ := ih out
      exact ⟨t, by rw [h]; exact h1, h2, by rw [h]; exact .cons _ _ _ _ (hp _) h3⟩
    by_cases ho : own = some (e.num, e.gen)
    · refine stay ([], []) ?_ fun F => ⟨rfl, rfl, by rw [if_pos ho]⟩
      rw [writeObjects, if_pos ho]
    · obtain ⟨n, g, k⟩ := e
      cases k with
      | free x =>
        refine stay ([], []) ?_ fun F => ⟨rfl, rfl, by rw [if_neg ho]⟩
        rw [writeObjects, if_neg ho]
      | used off o =>
        cases o with
        | none =>
          refine stay ([], []) ?_ fun F => ⟨rfl, rfl, by rw [if_neg ho]⟩
          rw [writeObjects, if_neg ho]
        | some o =>
          obtain ⟨t, h1, h2, h3⟩ := ih (out ++ writeObject n g o)
          have heq : writeObjects own out (⟨n, g, .used off (some o)⟩ :: es) =
              ((writeObjects own (out ++ writeObject n g o) es).1,
                ⟨n, g, .used out.length (some o)⟩ :: (writeObjects own (out ++ writeObject n g o) es).2) := by
            rw [writeObjects, if_neg ho]
          refine ⟨writeObject n g o ++ t, ?_, fun _ => ?_, ?_⟩
          · rw [heq, ← List.append_assoc]; exact h1
          · rw [← List.append_assoc]; exact h2 (endsWhite_object _ _ _ _)
          · rw [heq, ← List.append_assoc]
            refine .cons _ _ _ _ ⟨rfl, rfl, ?_⟩ h3
            rw [if_neg ho]
            exact ⟨out, t, by simp, rfl⟩
      | compressed s i o =>
        obtain ⟨t, h1, h2, h3⟩ := ih (out ++ writeObject n g o)
        have heq : writeObjects own out (⟨n, g, .compressed s i o⟩ :: es) =
            ((writeObjects own (out ++ writeObject n g o) es).1,
              ⟨n, g, .compressed s i o⟩ :: (writeObjects own (out ++ writeObject n g o) es).2) := by
          rw [writeObjects, if_neg ho]
        refine ⟨writeObject n g o ++ t, ?_, fun _ => ?_, ?_⟩
        · rw [heq, ← List.append_assoc]; exact h1
        · rw [← List.append_assoc]; exact h2 (endsWhite_object _ _ _ _)
        · rw [heq, ← List.append_assoc]
          refine .cons _ _ _ _ ⟨rfl, rfl, ?_⟩ h3
          rw [if_neg ho]

/-! ### tables -/

theorem distinct_of_sorted {l : List XEntry} (h : l.Pairwise (fun a b => a.num < b.num)) : Distinct l :=
  h.imp (fun h => by omega)

/-- Only used entries are asked whether they are in use. -/
theorem writeXrefTable_used (u : XEntry → Bool) (l : EntrySet) (d : Dict) :
    writeXrefTable u l d = writeXrefTable (fun e => match e.kind with | .used _ => u e | _ => true) l d := by
  have : writeTableLine u = writeTableLine (fun e => match e.kind with | .used _ => u e | _ => true) := by
    funext e
    obtain ⟨n, g, k⟩ := e
    cases k <;> rfl
  have h2 : ∀ f l, writeSubsections u f l =
      writeSubsections (fun e => match e.kind with | .used _ => u e | _ => true) f l := by
    intro f
    induction f with
    | zero => intro l; rfl
    | succ f ih =>
      intro l
      cases l with
      | nil => rfl
      | cons e es => rw [writeSubsections, writeSubsections, this]; simp only [ih]
  rw [writeXrefTable, writeXrefTable, h2]

/-- A table is read back from its position, whatever follows. -/
theorem table_read (e : Env) (st : Bytes → Res ReadSection) (u : XEntry → Bool) (l : EntrySet) (d : Dict)
    (pre more : Bytes) (off : Int) (hw : e.whole = pre ++ (writeXrefTable u l d ++ (writeXrefOffset off ++ more)))
    (hd : Distinct l) (hl : l.length < 18446744073709551616) (hfit : ∀ x ∈ l, Fitting x)
    (hu : ∀ x ∈ l, ∀ o, x.kind = .used o → u x = true) (ht : Holdable (.dict d)) :
    ∃ l', readSection e st pre.length = .ok (l', dropNullsEntries d) ∧ Distinct l' ∧
      ∀ x, x ∈ l' ↔ ∃ y ∈ l, x = seenEntry y := by
  obtain ⟨l', h1, h2, h3⟩ := C20_roundtrip_partial e (fun x => match x.kind with | .used _ => u x | _ => true) l d
    (intDec off ++ b! "\n%%EOF\n" ++ more) hd hl hfit (fun x hx => by
      obtain ⟨n, g, k⟩ := x
      cases k with
      | used o => exact hu _ hx o rfl
      | _ => rfl) ht
  rw [← writeXrefTable_used] at h1
  refine ⟨l', ?_, h2, h3⟩
  have hs : e.seek pre.length = writeXrefTable u l d ++ b! "startxref\n" ++ (intDec off ++ b! "\n%%EOF\n" ++ more) := by
    rw [seek_prefix e pre _ hw]; simp [writeXrefOffset]
  have hk := skip_keyword (p := []) .nil 0x78 (b! "ref") (b! "\n" ++ writeSubsections u l.length (EntrySet.sorted l) ++
    b! "trailer\n" ++ writeObj (.dict d) ++ b! "\n" ++ b! "startxref\n" ++ (intDec off ++ b! "\n%%EOF\n" ++ more))
    (by decide) (by decide) (by decide) (by simp only [List.append_assoc]; exact ends_lf _)
  have hk' : readTokenSkip parserKeywords (writeXrefTable u l d ++ b! "startxref\n" ++ (intDec off ++ b! "\n%%EOF\n" ++ more)) =
    .ok (⟨.keyword (b! "xref"), b! "xref"⟩, b! "\n" ++ writeSubsections u l.length (EntrySet.sorted l) ++
    b! "trailer\n" ++ writeObj (.dict d) ++ b! "\n" ++ b! "startxref\n" ++ (intDec off ++ b! "\n%%EOF\n" ++ more)) := by
    refine Eq.trans ?_ hk; congr 1
  rw [readSection]
  dsimp only
  rw [hs, hk', ok_bind]
  dsimp only
  rw [if_pos (by decide), h1]
  rfl

/-! ### cross-reference streams -/

theorem natList_map (l : List Nat) : natList (l.map fun n : Nat => Obj.int n) = .ok l := by
  induction l with
  | nil => rfl
  | cons n l ih =>
    rw [List.map_cons, natList, if_neg (by omega), ih, ok_bind]
    simp; rfl

theorem dropNullsItems_ints (l : List Nat) : dropNullsItems (l.map fun n : Nat => Obj.int n) = l.map fun n : Nat => Obj.int n := by
  induction l with
  | nil => simp [dropNullsItems]
  | cons n l ih => rw [List.map_cons, dropNullsItems, ih]; simp [dropNulls]

/-- A cross-reference stream is read back from its position, whatever follows. -/
theorem stream_read (e : Env) (c : Codec) (n g : Nat) (dd : Dict) (body : Bytes) (data : XrefStreamData) (size : Int)
    (pre more : Bytes) (hw : e.whole = pre ++ (writeObject n g (.stream dd body) ++ more)) (hn : n ≤ 9223372036854775807)
    (hg : g ≤ 65535) (hd : Holdable (.dict dd))
    (hW : mapFind (b! "W") dd = some (.arr ([data.widths.w1, data.widths.w2, data.widths.w3].map fun n : Nat => Obj.int n)))
    (hI : mapFind (b! "Index") dd = some (.arr (data.index.map fun n : Nat => Obj.int n)))
    (hS : mapFind (b! "Size") dd = some (.int size)) (hL : mapFind (b! "Length") dd = some (.int body.length))
    (hdec : c.decode (dropNullsEntries dd) body = .ok data.body) (l : EntrySet) (hl : readXrefStream data = .ok l) :
    readSection e (readStreamSection c e) pre.length = .ok (l, dropNullsEntries dd) := by
  have hs := (holdable_dict hd).1
  obtain ⟨p, h1, rfl, h2⟩ := parse_written e n g (.stream dd body) pre more hw hn hg ⟨hd, _, hL, Or.inr ⟨_, rfl⟩, rfl⟩
  have hk := skip_int (p := []) .nil (natDec_text n) (b! " " ++ natDec g ++ b! " obj\n" ++ writeBody (.stream dd body) ++
    b! "\nendobj\n" ++ more) (by simp only [List.append_assoc]; exact ends_space _)
  have hk' : readTokenSkip parserKeywords (e.seek pre.length) = .ok (⟨.integer, natDec n⟩, b! " " ++ natDec g ++ b! " obj\n" ++
      writeBody (.stream dd body) ++ b! "\nendobj\n" ++ more) := by
    rw [seek_prefix e pre _ hw]
    refine Eq.trans ?_ hk; congr 1; simp [writeObject]
  rw [readSection]
  dsimp only
  rw [hk', ok_bind]
  dsimp only
  rw [if_neg (by simp), readStreamSection, h1, ok_bind]
  dsimp only
  rw [dropNullsEntries_value hs, hW, dropNullsEntries_value hs, hS, dropNullsEntries_value hs, hI]
  dsimp only [dropNulls]
  rw [dropNullsItems_ints, dropNullsItems_ints, natList_map, ok_bind]
  show (natList (data.index.map fun n : Nat => Obj.int n) >>= _) = _
  rw [natList_map, ok_bind]
  dsimp only
  rw [h2, ok_bind, hdec, ok_bind]
  show (readXrefStream data >>= _) = _
  rw [hl]; rfl

/-! ### sections -/

theorem cloneTrailer_fold (d : Dict) : ∀ (ks : List Bytes) (r : Dict), Holdable (.dict d) → Holdable (.dict r) →
    Holdable (.dict (ks.foldl (fun r k => match mapFind k d with | none => r | some v => mapInsert k v r) r)) ∧
    ∀ q, mapFind q (ks.foldl (fun r k => match mapFind k d with | none => r | some v => mapInsert k v r) r) =
      match mapFind q r with
      | some v => some v
      | none => if q ∈ ks then mapFind q d else none := by
  intro ks
  induction ks with
  | nil =>
    intro r hd hr
    refine ⟨hr, fun q => ?_⟩
    rw [List.foldl_nil]
    cases mapFind q r <;> simp
  | cons k ks ih =>
    intro r hd hr
    rw [List.foldl_cons]
    cases hk : mapFind k d with
    | none =>
      obtain ⟨h1, h2⟩ := ih r hd hr
      refine ⟨h1, fun q => ?_⟩
      show mapFind q (ks.foldl (fun r k => match mapFind k d with | none => r | some v => mapInsert k v r) r) = _
      rw [h2]
      cases mapFind q r with
      | some v => rfl
      | none =>
        dsimp only
        by_cases hq : q = k
        · subst hq; simp [hk]
        · simp [hq]
    | some v =>
      have hv : Holdable v := (holdable_dict hd).2 _ (mapFind_entry hk)
      obtain ⟨h1, h2⟩ := ih (mapInsert k v r) hd (holdable_insert hr hv k)
      refine ⟨h1, fun q => ?_⟩
      show mapFind q (ks.foldl (fun r k => match mapFind k d with | none => r | some v => mapInsert k v r) (mapInsert k v r)) = _
      rw [h2, mapFind_insert (holdable_dict hr).1]
      by_cases hq : q = k
      · subst hq
        rw [if_pos rfl]
        cases mapFind q r with
        | some w => rfl
        | none => simp [hk]
      · rw [if_neg hq]
        cases mapFind q r with
        | some w => rfl
        | none => simp [hq]

theorem cloneTrailer_spec (size : Nat) (d : Dict) (hd : Holdable (.dict d)) (hs : size ≤ 9223372036854775807) :
    Holdable (.dict (cloneTrailer size d)) ∧ ∀ q ∈ trailerKeys, mapFind q (cloneTrailer size d) = mapFind q d := by
  have h0 : Holdable (.dict [(b! "Size", .int size)]) :=
    .dict _ (List.pairwise_singleton _ _) (by intro x hx; simp at hx; subst hx; exact .int _ (by omega) (by omega))
  obtain ⟨h1, h2⟩ := cloneTrailer_fold d trailerKeys _ hd h0
  refine ⟨h1, fun q hq => ?_⟩
  refine (h2 q).trans ?_
  have : q ≠ b! "Size" := by rintro rfl; revert hq; decide
  rw [mapFind, if_neg (by simpa using this), mapFind]
  simp [hq]

/-- An entry of the document and the entry a reader of the section finds, when the file contains `F`. -/
def Stored (resolve : Nat → Nat → Res Int) (F : Bytes) (own : Option (Nat × Nat)) (e : WEntry) (x : XEntry) : Prop :=
  x.num = e.num ∧ x.gen = e.gen ∧ (own ≠ some (e.num, e.gen) →
    match e.kind with
    | .free _ => ∃ n, x.kind = .free n
    | .used _ o => ∃ pre post o', x.kind = .used pre.length ∧ F = pre ++ (writeObject e.num e.gen o' ++ post) ∧
        Updated resolve (o.getD (.direct .null)) o'
    | .compressed s i _ => x.kind = .compressed s i) ∧
  ∀ s i, x.kind = .compressed s i → ∃ o, e.kind = .compressed s i o

theorem Stored.mono {resolve : Nat → Nat → Res Int} {F : Bytes} {own : Option (Nat × Nat)} {e : WEntry} {x : XEntry}
    (h : Stored resolve F own e x) (more : Bytes) : Stored resolve (F ++ more) own e x := by
  obtain ⟨h1, h2, h3, hk⟩ := h
  refine ⟨h1, h2, fun ho => ?_, hk⟩
  have h3 := h3 ho
  obtain ⟨n, g, k⟩ := e
  cases k with
  | used off o =>
    obtain ⟨pre, post, o', h4, h5, h6⟩ := h3
    exact ⟨pre, post ++ more, o', h4, by rw [h5]; simp, h6⟩
  | _ => exact h3

/-- From the entry of the document to the entry in the output. -/
def Through (resolve : Nat → Nat → Res Int) (F : Bytes) (own : Option (Nat × Nat)) (e e3 : WEntry) : Prop :=
  ∃ e2, (∃ e1, e1 = cloneEntry e ∧ Recalced resolve own e1 e2) ∧ Placed F own e2 e3

theorem cloneEntry_num (e : WEntry) : (cloneEntry e).num = e.num ∧ (cloneEntry e).gen = e.gen := by
  obtain ⟨n, g, k⟩ := e
  cases k with
  | used off o => cases o <;> exact ⟨rfl, rfl⟩
  | _ => exact ⟨rfl, rfl⟩

theorem Through.num {resolve : Nat → Nat → Res Int} {F : Bytes} {own : Option (Nat × Nat)} {e e3 : WEntry}
    (h : Through resolve F own e e3) : e3.num = e.num ∧ e3.gen = e.gen := by
  obtain ⟨e2, ⟨e1, rfl, r⟩, p⟩ := h
  have c := cloneEntry_num e
  exact ⟨by rw [p.1, r.1, c.1], by rw [p.2.1, r.2.1, c.2]⟩

/-- The kinds of an entry that is not the section's own. -/
theorem Through.kind {resolve : Nat → Nat → Res Int} {F : Bytes} {own : Option (Nat × Nat)} {e e3 : WEntry}
    (h : Through resolve F own e e3) (ho : own ≠ some (e.num, e.gen)) :
    match e.kind with
    | .free _ => e3.kind = .free 0
    | .used _ o => ∃ pre post o', e3.kind = .used pre.length (some o') ∧ F = pre ++ (writeObject e.num e.gen o' ++ post) ∧
        Updated resolve (o.getD (.direct .null)) o'
    | .compressed s i o => e3.kind = .compressed s i o := by
  obtain ⟨e2, ⟨e1, rfl, r⟩, p⟩ := h
  obtain ⟨c1, c2⟩ := cloneEntry_num e
  obtain ⟨r1, r2, r3⟩ := r
  obtain ⟨p1, p2, p3⟩ := p
  rw [c1, c2, if_neg ho] at r3
  rw [r1, r2, c1, c2, if_neg ho] at p3
  obtain ⟨n, g, k⟩ := e
  have used : ∀ off o, (∃ o', e2.kind = .used off (some o') ∧ Updated resolve o o') →
      ∃ pre post o', e3.kind = .used pre.length (some o') ∧ F = pre ++ (writeObject n g o' ++ post) ∧ Updated resolve o o' := by
    rintro off o ⟨o', h1, h2⟩
    rw [h1] at p3
    obtain ⟨pre, post, p4, p5⟩ := p3
    exact ⟨pre, post, o', p5, p4, h2⟩
  cases k with
  | free x =>
    have r3 : e2.kind = .free 0 := r3
    rw [r3] at p3; exact p3
  | used off o =>
    cases o with
    | none => exact used off (.direct .null) r3
    | some o => exact used off o r3
  | compressed s i o =>
    have r3 : e2.kind = .compressed s i o := r3
    rw [r3] at p3; exact p3

theorem Through.own {resolve : Nat → Nat → Res Int} {F : Bytes} {own : Option (Nat × Nat)} {e e3 : WEntry}
    (h : Through resolve F own e e3) (ho : own = some (e.num, e.gen)) : e3 = cloneEntry e := by
  obtain ⟨e2, ⟨e1, rfl, r⟩, p⟩ := h
  obtain ⟨c1, c2⟩ := cloneEntry_num e
  obtain ⟨r1, r2, r3⟩ := r
  obtain ⟨p1, p2, p3⟩ := p
  rw [c1, c2, if_pos ho] at r3
  rw [r1, r2, c1, c2, if_pos ho] at p3
  rw [p3, r3]

theorem Through.stored {resolve : Nat → Nat → Res Int} {F : Bytes} {own : Option (Nat × Nat)} {e e3 : WEntry}
    (h : Through resolve F own e e3) :
    Stored resolve F own e e3.plain ∧ Stored resolve F own e (seenEntry e3.plain) := by
  obtain ⟨n1, n2⟩ := h.num
  have k := h.kind
  have hk : ∀ s i, e3.plain.kind = .compressed s i → ∃ o, e.kind = .compressed s i o := by
    intro s i h3
    by_cases ho : own = some (e.num, e.gen)
    · rw [h.own ho] at h3
      obtain ⟨n, g, k0⟩ := e
      cases k0 with
      | free x => cases h3
      | used off o => cases o <;> cases h3
      | compressed s' i' o => cases h3; exact ⟨o, rfl⟩
    · have k := k ho
      obtain ⟨n, g, k3⟩ := e3
      obtain ⟨n0, g0, k0⟩ := e
      cases k0 with
      | free x =>
        have k : k3 = .free 0 := k
        subst k; cases h3
      | used off o =>
        obtain ⟨pre, post, o', k1, k2⟩ := k
        dsimp only at k1; subst k1; cases h3
      | compressed s' i' o =>
        have k : k3 = .compressed s' i' o := k
        subst k; cases h3; exact ⟨o, rfl⟩
  have hk' : ∀ s i, (seenEntry e3.plain).kind = .compressed s i → ∃ o, e.kind = .compressed s i o := by
    intro s i h3
    refine hk s i ?_
    revert h3
    obtain ⟨n, g, k3⟩ := e3
    cases k3 with
    | compressed s' i' o => exact id
    | _ => intro h; cases h
  obtain ⟨n, g, k3⟩ := e3
  obtain ⟨n0, g0, k0⟩ := e
  dsimp only at n1 n2; subst n1; subst n2
  constructor
  · refine ⟨rfl, rfl, fun ho => ?_, hk⟩
    have k := k ho
    cases k0 with
    | free x =>
      have k : k3 = .free 0 := k
      subst k; exact ⟨_, rfl⟩
    | used off o =>
      obtain ⟨pre, post, o', k1, k2⟩ := k
      dsimp only at k1; subst k1
      exact ⟨pre, post, o', rfl, k2⟩
    | compressed s i o =>
      have k : k3 = .compressed s i o := k
      subst k; rfl
  · refine ⟨by cases k3 <;> rfl, by cases k3 <;> rfl, fun ho => ?_, hk'⟩
    have k := k ho
    cases k0 with
    | free x =>
      have k : k3 = .free 0 := k
      subst k; exact ⟨_, rfl⟩
    | used off o =>
      obtain ⟨pre, post, o', k1, k2⟩ := k
      dsimp only at k1; subst k1
      exact ⟨pre, post, o', rfl, k2⟩
    | compressed s i o =>
      have k : k3 = .compressed s i o := k
      subst k; rfl

theorem sorted_unique {l : List WEntry} (h : l.Pairwise (fun a b => a.num < b.num)) {a b : WEntry} (ha : a ∈ l) (hb : b ∈ l)
    (hab : a.num = b.num) : a = b := by
  induction l with
  | nil => cases ha
  | cons x l ih =>
    rw [List.pairwise_cons] at h
    rcases List.mem_cons.mp ha with ha' | ha' <;> rcases List.mem_cons.mp hb with hb' | hb'
    · rw [ha', hb']
    · have := h.1 b hb'; subst ha'; omega
    · have := h.1 a ha'; subst hb'; omega
    · exact ih h.2 ha' hb'

theorem pairwise_of_map {l m : List WEntry} (h : m.map WEntry.num = l.map WEntry.num)
    (hl : l.Pairwise (fun a b => a.num < b.num)) : m.Pairwise (fun a b => a.num < b.num) := by
  have h1 : (l.map WEntry.num).Pairwise (· < ·) := List.pairwise_map.mpr hl
  rw [← h] at h1
  exact List.pairwise_map.mp h1

/-- The entry Prev: the new one, if any, replaces the old one. -/
def prevValue (prev : Option Int) (old : Option Obj) : Option Obj :=
  match prev with
  | none => old
  | some p => some (.int p)

/-- What is known of a section of the file `F` at the offset `off`. -/
structure Written (c : Codec) (resolve : Nat → Nat → Res Int) (F : Bytes) (off : Int) (prev : Option Int) (s : WSection)
    (x : ReadSection) : Prop where
  read : readSection (openEnv F) (readStreamSection c (openEnv F)) off = .ok x
  distinct : Distinct x.1
  there : ∀ e ∈ s.entries, ∃ y ∈ x.1, Stored resolve F s.own e y
  only : ∀ y ∈ x.1, ∃ e ∈ s.entries, y.num = e.num ∧ y.gen = e.gen
  prevEntry : mapFind (b! "Prev") x.2 = prevValue prev (mapFind (b! "Prev") (dropNullsEntries s.trailer))
  trailer : ∀ k ∈ [b! "Root", b! "Info", b! "ID", b! "Encrypt"], mapFind k x.2 = mapFind k (dropNullsEntries s.trailer)

theorem streamHeader_spec (data : XrefStreamData) {d : Dict} (hd : Holdable (.dict d))
    (hw : data.widths.w1 ≤ 8 ∧ data.widths.w2 ≤ 8 ∧ data.widths.w3 ≤ 8) (hi : ∀ n ∈ data.index, n ≤ 9223372036854775807) :
    Holdable (.dict (streamHeader data d)) ∧
    mapFind (b! "W") (streamHeader data d) =
      some (.arr ([data.widths.w1, data.widths.w2, data.widths.w3].map fun n : Nat => Obj.int n)) ∧
    mapFind (b! "Index") (streamHeader data d) = some (.arr (data.index.map fun n : Nat => Obj.int n)) ∧
    mapFind (b! "DecodeParms") (streamHeader data d) = none ∧
    ∀ q, q ∉ [b! "W", b! "Index", b! "DecodeParms"] → mapFind q (streamHeader data d) = mapFind q d := by
  have hs := (holdable_dict hd).1
  have hW : Holdable (.arr [.int data.widths.w1, .int data.widths.w2, .int data.widths.w3]) :=
    .arr _ (by intro o ho; simp at ho; rcases ho with rfl | rfl | rfl <;> exact .int _ (by omega) (by omega))
  have hI : Holdable (.arr (data.index.map fun n : Nat => Obj.int n)) :=
    .arr _ (by
      intro o ho
      obtain ⟨n, hn, rfl⟩ := List.mem_map.mp ho
      have := hi n hn
      exact .int _ (by omega) (by omega))
  have h1 := holdable_insert (holdable_erase hd (b! "W")) hW (b! "W")
  have h2 := holdable_insert (holdable_erase h1 (b! "Index")) hI (b! "Index")
  have f : ∀ q, mapFind q (streamHeader data d) = if q = b! "DecodeParms" then none else if q = b! "Index" then
      some (.arr (data.index.map fun n : Nat => Obj.int n)) else if q = b! "W" then
      some (.arr [.int data.widths.w1, .int data.widths.w2, .int data.widths.w3]) else mapFind q d := by
    intro q
    rw [streamHeader]
    rw [mapErase_find, replace_find (holdable_dict h1).1, replace_find hs]
  refine ⟨holdable_erase h2 _, ?_, ?_, ?_, fun q hq => ?_⟩
  · rw [f, if_neg (by decide), if_neg (by decide), if_pos rfl]; rfl
  · rw [f, if_neg (by decide), if_pos rfl]
  · rw [f, if_pos rfl]
  · simp only [List.mem_cons, List.not_mem_nil, or_false, not_or] at hq
    rw [f, if_neg hq.2.2, if_neg hq.2.1, if_neg hq.1]

theorem contentLoop_index (w : Widths) (b : Nat) : ∀ (es : List XEntry) (index size prev : Nat) (ix : List Nat) (body : Bytes),
    contentLoop w es index size prev = .ok (ix, body) → index ≤ b → size + es.length ≤ b → (∀ e ∈ es, e.num ≤ b) →
    ∀ n ∈ ix, n ≤ b := by
  intro es
  induction es with
  | nil =>
    intro index size prev ix body h hi hs _ n hn
    rw [contentLoop] at h
    injection h with h; injection h with h1 h2; subst h1
    simp at hn hs; omega
  | cons e es ih =>
    intro index size prev ix body h hi hs he n hn
    rw [contentLoop] at h
    obtain ⟨split, h1, h⟩ := except_bind_ok h
    obtain ⟨row, h2, h⟩ := except_bind_ok h
    simp only [List.length_cons] at hs
    by_cases hsp : split = true
    · rw [if_pos hsp] at h
      obtain ⟨⟨ix', body'⟩, h3, h⟩ := except_bind_ok h
      injection h with h; injection h with h4 h5; subst h4
      have := ih _ _ _ _ _ h3 (he e (by simp)) (by omega) (fun x hx => he x (by simp [hx]))
      simp only [List.mem_cons] at hn
      rcases hn with rfl | rfl | hn
      · exact hi
      · omega
      · exact this n hn
    · rw [if_neg hsp] at h
      obtain ⟨⟨ix', body'⟩, h3, h⟩ := except_bind_ok h
      injection h with h; injection h with h4 h5; subst h4
      exact ih _ _ _ _ _ h3 hi (by omega) (fun x hx => he x (by simp [hx])) n hn

/-- The numbers in the header of a recalculated cross-reference stream. -/
theorem recalculateContent_small {w : Widths} {l : EntrySet} {data : XrefStreamData} (h : recalculateContent w l = .ok data)
    (hd : Distinct l) (hlen : l.length ≤ 2147483648) (hfit : ∀ e ∈ l, StreamFitting e ∧ e.num ≤ 9223372036854775807)
    (h1 : w.w1 ≤ 8) (h2 : w.w2 ≤ 8) (h3 : w.w3 ≤ 8) :
    (data.widths.w1 ≤ 8 ∧ data.widths.w2 ≤ 8 ∧ data.widths.w3 ≤ 8) ∧ ∀ n ∈ data.index, n ≤ 9223372036854775807 := by
  obtain ⟨s1, s2, s3⟩ := sorted_spec hd
  rw [recalculateContent] at h
  dsimp only at h
  obtain ⟨⟨ix, body⟩, hc, h⟩ := except_bind_ok h
  injection h with h; subst h
  refine ⟨?_, contentLoop_index _ 9223372036854775807 _ _ _ _ _ _ hc (by omega) (by omega)
    (fun e he => (hfit e ((s2 e).mp he)).2)⟩
  obtain ⟨w1, _, _, w2, w3⟩ := widen_spec w (EntrySet.sorted l)
  obtain ⟨b2, b3⟩ := w3 8 h2 h3 (fun e he => by
    have := (hfit e ((s2 e).mp he)).1
    have vals : (0 ≤ secondField e ∧ secondField e < 9223372036854775808) ∧ thirdField e < 9223372036854775808 := by
      obtain ⟨n, g, k⟩ := e
      cases k <;> simp [StreamFitting, secondField, thirdField] at this ⊢ <;> omega
    have a := C15_content_width_fits_partial (secondField e).toNat (by omega)
    rw [show (((secondField e).toNat : Nat) : Int) = secondField e by omega] at a
    exact ⟨a.1, (C15_content_width_fits_partial (thirdField e) (by omega)).1⟩)
  exact ⟨by dsimp only; omega, b2, b3⟩

/-- The trailer that `cloneSection` makes. -/
theorem _root_.VPdf.Spec.GoodSection.fair {s : WSection} (h : GoodSection s) : FairSection s where
  sorted := h.sorted
  count := h.count
  numbers := h.numbers
  objects e he := by
    have := h.objects e he
    obtain ⟨n, g, k⟩ := e
    cases k with
    | free x => trivial
    | used off o => exact this
    | compressed st i o => exact this.elim
  trailer := h.trailer
  own := h.own

theorem cloneSection_trailer {s : WSection} (good : FairSection s) :
    Holdable (.dict (cloneSection s).trailer) ∧
    ∀ q ∈ trailerKeys, mapFind q (cloneSection s).trailer = mapFind q s.trailer := by
  have hc := good.count
  rw [cloneSection]
  cases ho : s.own with
  | none => exact cloneTrailer_spec _ _ good.trailer (by omega)
  | some ng => exact ⟨good.trailer, fun _ _ => rfl⟩

theorem recalcSection_spec {resolve : Nat → Nat → Res Int} {prev : Option Int} {s s' : WSection}
    (h : recalcSection resolve prev s = .ok s') (hd : Holdable (.dict s.trailer)) (hc : s.entries.length ≤ 2147483648)
    (hp : ∀ p, prev = some p → 0 ≤ p ∧ p ≤ 9223372036854775807) :
    s'.own = s.own ∧ Zip (Recalced resolve s.own) s.entries s'.entries ∧ Holdable (.dict s'.trailer) ∧
    mapFind (b! "Prev") s'.trailer = prevValue prev (mapFind (b! "Prev") s.trailer) ∧
    mapFind (b! "Size") s'.trailer = some (.int s.entries.length) ∧
    ∀ q, q ≠ b! "Prev" → q ≠ b! "Size" → mapFind q s'.trailer = mapFind q s.trailer := by
  unfold recalcSection at h
  obtain ⟨t1, h1, h⟩ := except_bind_ok h
  obtain ⟨es, h2, h⟩ := except_bind_ok h
  obtain ⟨t2, h3, h⟩ := except_bind_ok h
  injection h with h; subst h
  have first : Holdable (.dict t1) ∧
      mapFind (b! "Prev") t1 = prevValue prev (mapFind (b! "Prev") s.trailer) ∧
      ∀ q, q ≠ b! "Prev" → mapFind q t1 = mapFind q s.trailer := by
    cases prev with
    | none => injection h1 with h1; subst h1; exact ⟨hd, rfl, fun _ _ => rfl⟩
    | some p =>
      have := hp p rfl
      exact setInteger_spec h1 hd (.int _ (by omega) (by omega))
  obtain ⟨f1, f2, f3⟩ := first
  obtain ⟨g1, g2, g3⟩ := setInteger_spec h3 f1 (.int _ (by omega) (by omega))
  exact ⟨rfl, recalcEntries_spec h2, g1, by rw [g3 _ (by decide)]; exact f2, g2, fun q hq hq' => by rw [g3 q hq', f3 q hq]⟩

theorem writeSection_spec {c : Codec} (hc : Faithful c) {resolve : Nat → Nat → Res Int} {out out' : Bytes}
    {prev : Option Int} {s s' : WSection} {off : Int} (good : FairSection s)
    (hp : ∀ p, prev = some p → 0 ≤ p ∧ p ≤ 9223372036854775807)
    (h : writeSection c resolve out prev (cloneSection s) = .ok (out', off, s'))
    (hlen : out'.length ≤ 9223372036854775807) (hw : EndsWhite out) :
    (∃ t, out' = out ++ t) ∧ (∃ p, EndsWhite p ∧ out' = p ++ writeXrefOffset off) ∧ (0 ≤ off ∧ off < out'.length) ∧
    ∀ more, ∃ x, Written c resolve (out' ++ more) off prev s x := by
  obtain ⟨hct, hck⟩ := cloneSection_trailer good
  have hsort := (holdable_dict good.trailer).1
  rw [writeSection] at h
  obtain ⟨s1, h1, h⟩ := except_bind_ok h
  obtain ⟨r1, r2, r3, r4, r5, r6⟩ := recalcSection_spec h1 hct (by simpa [cloneSection] using good.count) hp
  have hown : s1.own = s.own := r1
  obtain ⟨t, w1, w2, w3⟩ := writeObjects_spec s1.own s1.entries out
  rcases hwo : writeObjects s1.own out s1.entries with ⟨o1, es3⟩
  rw [hwo] at h w1 w3
  dsimp only at h w1 w3
  subst w1
  have w2 := w2 hw
  obtain ⟨⟨out2, off2⟩, hx, h⟩ := except_bind_ok h
  injection h with h; injection h with e1 h; injection h with e2 e3
  subst e1; subst e2; subst e3
  dsimp only at hlen ⊢
  have hown' : (cloneSection s).own = s.own := rfl
  rw [hown'] at r2
  rw [hown] at w3
  have hce : (cloneSection s).entries = s.entries.map cloneEntry := rfl
  rw [hce] at r2
  have zip : Zip (Through resolve (out ++ t) s.own) s.entries es3 :=
    (((Zip.of_map (R := fun a b => b = cloneEntry a) cloneEntry (fun _ _ => rfl)).comp r2).comp w3).imp (by
      rintro a b ⟨e2, ⟨e1, h1, h2⟩, h3⟩
      exact ⟨e2, ⟨e1, h1, h2⟩, h3⟩)
  have nums : es3.map WEntry.num = s.entries.map WEntry.num := zip.map_eq (fun a b h => h.num.1)
  have sorted3 := pairwise_of_map nums good.sorted
  have psorted : (es3.map WEntry.plain).Pairwise (fun a b => a.num < b.num) := by
    rw [List.pairwise_map]; exact sorted3
  have dist := distinct_of_sorted psorted
  have len3 : es3.length = s.entries.length := zip.length.symm
  have count := good.count
  have prevFact : ∀ (d : Dict), Holdable (.dict d) → mapFind (b! "Prev") d = mapFind (b! "Prev") s1.trailer →
      mapFind (b! "Prev") (dropNullsEntries d) = prevValue prev (mapFind (b! "Prev") (dropNullsEntries s.trailer)) := by
    intro d hd hf
    rw [dropNullsEntries_value (holdable_dict hd).1, hf, r4]
    cases prev with
    | none =>
      dsimp only [prevValue]
      rw [hck _ (by decide), ← dropNullsEntries_value hsort]
    | some p => rfl
  have keyFact : ∀ (d : Dict), Holdable (.dict d) → (∀ q ∈ [b! "Root", b! "Info", b! "ID", b! "Encrypt"], mapFind q d = mapFind q s1.trailer) →
      ∀ k ∈ [b! "Root", b! "Info", b! "ID", b! "Encrypt"], mapFind k (dropNullsEntries d) = mapFind k (dropNullsEntries s.trailer) := by
    intro d hd hf k hk
    refine dropNullsEntries_congr hsort (holdable_dict hd).1 ?_
    rw [hf k hk, r6 k (by rintro rfl; revert hk; decide) (by rintro rfl; revert hk; decide), hck]
    revert hk
    simp only [List.mem_cons, List.not_mem_nil, or_false]
    rintro (rfl | rfl | rfl | rfl) <;> decide
  cases ho : s.own with
  | none =>
    rw [writeXref] at hx
    dsimp only at hx
    rw [hown, ho] at hx
    dsimp only at hx
    injection hx with hx; injection hx with x1 x2
    have hF : ∀ more, out2 ++ more = (out ++ t ++ b! "\n") ++ (writeXrefTable (usedIn es3) (es3.map WEntry.plain) s1.trailer ++
        (writeXrefOffset off2 ++ more)) := by
      intro more; rw [← x1, ← x2]; simp
    have hlen2 : (out ++ t).length + 1 ≤ out2.length := by rw [← x1]; simp; omega
    have hfit : ∀ x ∈ es3.map WEntry.plain, Fitting x := by
      intro x hx
      obtain ⟨e3, he3, rfl⟩ := List.mem_map.mp hx
      obtain ⟨e, he, hth⟩ := zip.right e3 he3
      have k := hth.kind (by rw [ho]; simp)
      have num := good.numbers e he
      have ob := good.objects e he
      obtain ⟨n1, n2⟩ := hth.num
      obtain ⟨n, g, k3⟩ := e3
      obtain ⟨n0, g0, k0⟩ := e
      dsimp only at n1 n2 num; subst n1; subst n2
      refine ⟨by show n < _; omega, num.2, ?_⟩
      cases k0 with
      | free x =>
        have k : k3 = .free 0 := k
        subst k
        show (0 : Nat) ≤ _
        omega
      | used off o =>
        obtain ⟨pre, post, o', k1, k2, _⟩ := k
        dsimp only at k1; subst k1
        have : pre.length ≤ (out ++ t).length := by rw [k2]; simp
        show _ ∧ _
        omega
      | compressed s i o => exact absurd ho ob.1
    have hu : ∀ x ∈ es3.map WEntry.plain, ∀ o, x.kind = .used o → usedIn es3 x = true := by
      intro x hx o hk
      obtain ⟨e3, he3, rfl⟩ := List.mem_map.mp hx
      obtain ⟨e, he, hth⟩ := zip.right e3 he3
      have k := hth.kind (by rw [ho]; simp)
      have hfind : es3.find? (fun e => e.num == e3.plain.num) = some e3 := by
        cases hf : es3.find? (fun e => e.num == e3.plain.num) with
        | none =>
          have := List.find?_eq_none.mp hf e3 he3
          simp [WEntry.plain] at this
        | some y =>
          have h1 := List.mem_of_find?_eq_some hf
          have h2 := List.find?_some hf
          rw [sorted_unique sorted3 h1 he3 (by simpa [WEntry.plain] using h2)]
      rw [usedIn, hfind]
      obtain ⟨n, g, k3⟩ := e3
      obtain ⟨n0, g0, k0⟩ := e
      have ob := good.objects _ he
      cases k0 with
      | free x =>
        have k : k3 = .free 0 := k
        subst k; cases hk
      | used off o =>
        obtain ⟨pre, post, o', k1, k2, _⟩ := k
        dsimp only at k1; subst k1
        rfl
      | compressed s i o => exact absurd ho ob.1
    have tr : ∀ more, ∃ l', readSection (openEnv (out2 ++ more)) (readStreamSection c (openEnv (out2 ++ more))) off2 =
        .ok (l', dropNullsEntries s1.trailer) ∧ Distinct l' ∧ ∀ x, x ∈ l' ↔ ∃ y ∈ es3.map WEntry.plain, x = seenEntry y := by
      intro more
      have := table_read (openEnv (out2 ++ more)) (readStreamSection c (openEnv (out2 ++ more))) (usedIn es3) (es3.map WEntry.plain)
        s1.trailer (out ++ t ++ b! "\n") more off2 (hF more) dist (by simp; omega) hfit hu r3
      rw [← x2]; exact this
    have hend : EndsWhite (out ++ t ++ b! "\n" ++ writeXrefTable (usedIn es3) (es3.map WEntry.plain) s1.trailer) := by
      rw [writeXrefTable, ← List.append_assoc]; exact endsWhite_lf _
    refine ⟨⟨_, by rw [← x1, List.append_assoc, List.append_assoc, List.append_assoc]⟩, ⟨_, hend, by rw [← x1, ← x2]⟩, ?_, fun more => ?_⟩
    · rw [← x2, ← x1]; simp [writeXrefOffset]; omega
    obtain ⟨l', t1, t2, t3⟩ := tr more
    refine ⟨(l', dropNullsEntries s1.trailer), t1, t2, fun e he => ?_, fun y hy => ?_, prevFact _ r3 rfl, keyFact _ r3 (fun _ _ => rfl)⟩
    · obtain ⟨e3, he3, hth⟩ := zip.left e he
      refine ⟨seenEntry e3.plain, (t3 _).mpr ⟨_, List.mem_map.mpr ⟨e3, he3, rfl⟩, rfl⟩, ?_⟩
      have := hth.stored.2.mono (b! "\n" ++ writeXrefTable (usedIn es3) (es3.map WEntry.plain) s1.trailer ++
        (writeXrefOffset off2 ++ more))
      rw [hF more]
      simpa [List.append_assoc] using this
    · obtain ⟨z, hz, rfl⟩ := (t3 y).mp hy
      obtain ⟨e3, he3, rfl⟩ := List.mem_map.mp hz
      obtain ⟨e, he, hth⟩ := zip.right e3 he3
      have := hth.stored.2
      exact ⟨e, he, this.1, this.2.1⟩
  | some ng =>
    obtain ⟨n, g⟩ := ng
    obtain ⟨on, og, oz, ol, oo⟩ := good.own n g ho
    rw [writeXref] at hx
    dsimp only at hx
    rw [hown, ho] at hx
    dsimp only at hx
    obtain ⟨data, d1, hx⟩ := except_bind_ok hx
    obtain ⟨body, d2, hx⟩ := except_bind_ok hx
    obtain ⟨dd, d3, hx⟩ := except_bind_ok hx
    injection hx with hx; injection hx with x1 x2
    have hF : ∀ more, out2 ++ more = (out ++ t) ++ (writeObject n g (.stream dd body) ++ (writeXrefOffset off2 ++ more)) := by
      intro more; rw [← x1, ← x2]; simp
    have hlen2 : (out ++ t).length ≤ out2.length := by rw [← x1]; simp
    have hlenb : body.length ≤ out2.length := by rw [← x1]; simp [writeObject, writeBody]; omega
    have hfit : ∀ x ∈ es3.map WEntry.plain, StreamFitting x ∧ x.num ≤ 9223372036854775807 := by
      intro x hx
      obtain ⟨e3, he3, rfl⟩ := List.mem_map.mp hx
      obtain ⟨e, he, hth⟩ := zip.right e3 he3
      have num := good.numbers e he
      have ob := good.objects e he
      by_cases hoe : s.own = some (e.num, e.gen)
      · have := hth.own hoe
        subst this
        rw [ho] at hoe; injection hoe with hoe; injection hoe with q1 q2
        obtain ⟨n0, g0, k0⟩ := e
        dsimp only at q1 q2 num; subst q1; subst q2
        cases k0 with
        | free x => exact ⟨⟨by show n < _; omega, og, by show (0 : Nat) < _; omega⟩, on⟩
        | used off o =>
          have := (oo off o he).1
          cases o <;> exact ⟨⟨by show n < _; omega, og, by show _ ∧ _; omega⟩, on⟩
        | compressed s i o =>
          obtain ⟨_, ob1, ob2, ob3, _⟩ := ob
          exact ⟨⟨by show n < _; omega, og, by show _ ∧ _ ∧ _; exact ⟨ob1, by omega, by omega⟩⟩, on⟩
      · have k := hth.kind hoe
        obtain ⟨n1, n2⟩ := hth.num
        obtain ⟨n, g, k3⟩ := e3
        obtain ⟨n0, g0, k0⟩ := e
        dsimp only at n1 n2 num; subst n1; subst n2
        refine ⟨⟨by show n < _; omega, num.2, ?_⟩, num.1⟩
        cases k0 with
        | free x =>
          have k : k3 = .free 0 := k
          subst k
          show (0 : Nat) < _
          omega
        | used off o =>
          obtain ⟨pre, post, o', k1, k2, _⟩ := k
          dsimp only at k1; subst k1
          have : pre.length ≤ (out ++ t).length := by rw [k2]; simp
          show _ ∧ _
          omega
        | compressed s i o =>
          have k : k3 = .compressed s i o := k
          subst k
          obtain ⟨_, ob1, ob2, ob3, _⟩ := ob
          show _ ∧ _ ∧ _
          exact ⟨ob1, by omega, by omega⟩
    have hne : es3.map WEntry.plain ≠ [] := by
      intro hnil
      obtain ⟨e, he, _⟩ := oz
      obtain ⟨e3, he3, _⟩ := zip.left e he
      rw [List.map_eq_nil_iff] at hnil
      subst hnil; cases he3
    obtain ⟨ww1, ww2, ww3⟩ := C21_writer_widths _ hne (fun e he => (hfit e he).1)
    obtain ⟨data', l', d1', l1, l2, l3⟩ := C21_roundtrip_partial (recalculateWidths (es3.map WEntry.plain)) (es3.map WEntry.plain) dist
      (by simp; omega) (fun e he => (hfit e he).1) (by omega) (by omega) ww2 ww3 (Or.inr (by
        obtain ⟨e, he, h0⟩ := oz
        obtain ⟨e3, he3, hth⟩ := zip.left e he
        exact ⟨e3.plain, List.mem_map.mpr ⟨e3, he3, rfl⟩, by show e3.num = 0; rw [hth.num.1, h0]⟩))
    obtain rfl : data = data' := by rw [d1] at d1'; injection d1'
    obtain ⟨sw, si⟩ := recalculateContent_small d1 dist (by simp; omega) hfit (by omega) ww2 ww3
    obtain ⟨hh, hhW, hhI, hhD, hhq⟩ := streamHeader_spec data r3 sw si
    obtain ⟨q1, q2, lo, q3, q4, q5⟩ := recalcLength_spec d3 hh (by omega)
    have hlo : lo = .int body.length := by
      rcases q5 with h | h
      · exact h
      · rw [hhq _ (by decide), r6 _ (by decide) (by decide), hck _ (by decide)] at h
        rw [valueAt_eq] at ol
        rcases ol with ol | ⟨i, ol⟩
        · rw [ol] at h; cases h
        · rw [ol] at h; injection h with h; subst h
          simp only [asInt] at q4
          injection q4 with q4; rw [q4]
    subst hlo
    have hdec : c.decode (dropNullsEntries dd) body = .ok data.body := by
      refine hc _ _ _ _ d2 fun k hk => ?_
      rw [valueAt_eq, valueAt_eq]
      refine dropNullsEntries_congr (holdable_dict hh).1 (holdable_dict q1).1 (q2 k ?_)
      rcases hk with rfl | rfl <;> decide
    have key : ∀ k, k ∉ [b! "W", b! "Index", b! "DecodeParms"] → k ≠ b! "Length" → mapFind k dd = mapFind k s1.trailer :=
      fun k h1 h2 => by rw [q2 k h2, hhq k h1]
    refine ⟨⟨_, by rw [← x1, List.append_assoc, List.append_assoc]⟩, ⟨_, endsWhite_object _ _ _ _, by rw [← x1, ← x2]⟩, ?_, fun more => ?_⟩
    · rw [← x2, ← x1]; simp [writeXrefOffset]; omega
    have rd := stream_read (openEnv (out2 ++ more)) c n g dd body data _ (out ++ t) (writeXrefOffset off2 ++ more) (hF more) on og
      q1 (by rw [q2 _ (by decide)]; exact hhW) (by rw [q2 _ (by decide)]; exact hhI)
      (by rw [key _ (by decide) (by decide)]; exact r5) q3 hdec l' l1
    rw [x2] at rd
    refine ⟨(l', dropNullsEntries dd), rd, l2, fun e he => ?_, fun y hy => ?_, prevFact _ q1 (key _ (by decide) (by decide)),
      keyFact _ q1 (fun k hk => key k ?_ ?_)⟩
    · obtain ⟨e3, he3, hth⟩ := zip.left e he
      refine ⟨e3.plain, (l3 _).mpr (List.mem_map.mpr ⟨e3, he3, rfl⟩), ?_⟩
      have := hth.stored.1.mono (writeObject n g (.stream dd body) ++ (writeXrefOffset off2 ++ more))
      rw [hF more]
      simpa [List.append_assoc] using this
    · obtain ⟨e3, he3, rfl⟩ := List.mem_map.mp ((l3 y).mp hy)
      obtain ⟨e, he, hth⟩ := zip.right e3 he3
      have := hth.stored.1
      exact ⟨e, he, this.1, this.2.1⟩
    · revert hk
      simp only [List.mem_cons, List.not_mem_nil, or_false]
      rintro (rfl | rfl | rfl | rfl) <;> decide
    · revert hk
      simp only [List.mem_cons, List.not_mem_nil, or_false]
      rintro (rfl | rfl | rfl | rfl) <;> decide

end VPdf
