import Verif.Model.Signing
import Verif.Spec.Signing
import Verif.Lemmas.WriteObject
import Verif.Lemmas.Write
import Verif.Lemmas.XrefTable
import Verif.Lemmas.ContentTerm
/-
  Helper lemmas for Props/Signing.lean.
-/
namespace VPdf
open Spec

/-! ### The text of dictionaries with replaced values -/

/-- The text of entries whose values have the given texts. -/
def slotsText (first : Bool) : List (Bytes × Bytes) → Bytes
  | [] => []
  | (k, t) :: rest => (if first then [] else b! " ") ++ writeName k ++ b! " " ++ t ++ slotsText false rest

theorem writeSlots_text (l : List (Bytes × Slot)) : ∀ (first : Bool) (pos : Nat),
    (writeSlots first pos l).1 = slotsText first (l.map (fun x => (x.1, x.2.text))) := by
  induction l with
  | nil => intro _ _; rfl
  | cons a l ih =>
    intro first pos
    obtain ⟨k, s⟩ := a
    rw [writeSlots]; dsimp only
    rw [ih]
    simp [slotsText]

/-- The offset of a value is the length of the text in front of it. -/
theorem locate_writeSlots (k : Bytes) (s : Slot) (l2 : List (Bytes × Slot)) (l1 : List (Bytes × Slot)) :
    ∀ (first : Bool) (pos : Nat), (∀ x ∈ l1, x.1 ≠ k) →
    ∃ A : Bytes, locate k (writeSlots first pos (l1 ++ (k, s) :: l2)).2 = .ok (s, pos + A.length) ∧
      A = slotsText first (l1.map (fun x => (x.1, x.2.text))) ++
        (if first && l1.isEmpty then [] else b! " ") ++ writeName k ++ b! " " ∧
      (writeSlots first pos (l1 ++ (k, s) :: l2)).1 =
        A ++ s.text ++ slotsText false (l2.map (fun x => (x.1, x.2.text))) := by
  induction l1 with
  | nil =>
    intro first pos _
    refine ⟨_, ?_, rfl, ?_⟩
    · rw [List.nil_append, writeSlots]; dsimp only
      rw [locate, if_pos (by simp)]
      simp [slotsText]
    · rw [writeSlots_text]
      simp [slotsText]
  | cons a l1 ih =>
    intro first pos hne
    obtain ⟨k', s'⟩ := a
    obtain ⟨A, h1, h2, h3⟩ := ih false
      (pos + ((if first then [] else b! " ") ++ writeName k' ++ b! " ").length + s'.text.length)
      (fun x hx => hne x (List.mem_cons_of_mem _ hx))
    refine ⟨((if first then [] else b! " ") ++ writeName k' ++ b! " ") ++ s'.text ++ A, ?_, ?_, ?_⟩
    · rw [List.cons_append, writeSlots]; dsimp only
      rw [locate, if_neg (by simpa using (Ne.symm (hne (k', s') (by simp)))), h1]
      simp only [List.length_append, Nat.add_assoc]
    · rw [h2]; simp [slotsText]
    · rw [writeSlots_text]
      rw [writeSlots_text] at h3
      rw [List.cons_append, List.map_cons, slotsText, h3]
      simp

/-! ### The tracked objects -/

/-- The text of a written object, wherever it is written. -/
def OutObj.text : OutObj → Bytes
  | .plain n g o => writeObject n g o
  | .tracked n g _ entries =>
    objHead n g ++ b! "<<" ++ slotsText true (entries.map (fun x => (x.1, x.2.text))) ++ b! ">>" ++ b! "\nendobj\n"

/-- The object has another identifier or none. -/
def OutObj.other (id : Bytes) : OutObj → Prop
  | .plain _ _ _ => True
  | .tracked _ _ id' _ => id ≠ id'

theorem writeTracked_text (id out : Bytes) (cur : Option (List (Bytes × Slot × Nat))) (w : OutObj) :
    (writeTracked id out cur w).1 = out ++ w.text := by
  cases w with
  | plain n g o => rfl
  | tracked n g id' es =>
    rw [writeTracked]; dsimp only
    rw [writeSlots_text]
    simp [OutObj.text]

theorem writeAllTracked_text (id : Bytes) (ws : List OutObj) : ∀ (out : Bytes) (cur : Option (List (Bytes × Slot × Nat))),
    (writeAllTracked id out cur ws).1 = out ++ ws.flatMap OutObj.text := by
  induction ws with
  | nil => intro out cur; simp [writeAllTracked]
  | cons w ws ih =>
    intro out cur
    rw [writeAllTracked]
    have := writeTracked_text id out cur w
    revert this
    generalize writeTracked id out cur w = r
    obtain ⟨o, c⟩ := r
    intro h; dsimp only at h ⊢
    rw [ih, h]; simp

theorem writeAllTracked_other (id : Bytes) (ws : List OutObj) (h : ∀ w ∈ ws, w.other id) :
    ∀ (out : Bytes) (cur : Option (List (Bytes × Slot × Nat))), (writeAllTracked id out cur ws).2 = cur := by
  induction ws with
  | nil => intro out cur; rfl
  | cons w ws ih =>
    intro out cur
    rw [writeAllTracked]
    have hw : (writeTracked id out cur w).2 = cur := by
      have := h w (by simp)
      cases w with
      | plain n g o => rfl
      | tracked n g id' es =>
        rw [writeTracked]; dsimp only
        rw [if_neg this]
    revert hw
    generalize writeTracked id out cur w = r
    obtain ⟨o, c⟩ := r
    intro hc; dsimp only at hc ⊢
    rw [ih (fun w hw => h w (List.mem_cons_of_mem _ hw)), hc]

theorem writeAllTracked_append (id : Bytes) (w1 w2 : List OutObj) : ∀ (out : Bytes) (cur : Option (List (Bytes × Slot × Nat))),
    writeAllTracked id out cur (w1 ++ w2) =
      writeAllTracked id (writeAllTracked id out cur w1).1 (writeAllTracked id out cur w1).2 w2 := by
  induction w1 with
  | nil => intro out cur; rfl
  | cons w w1 ih =>
    intro out cur
    rw [List.cons_append, writeAllTracked, writeAllTracked]
    generalize writeTracked id out cur w = r
    obtain ⟨o, c⟩ := r
    exact ih o c

/-! ### Streams -/

theorem signUpdate_spec (left : Nat) : ∀ (f : Nat) (s : IStream), s.good = true → s.getPos + left ≤ s.data.length → left < f →
    signUpdate f s left = .ok ((s.data.drop s.getPos).take left, { s with getPos := s.getPos + left }) := by
  induction left using Nat.strong_induction_on with
  | _ left ih =>
    intro f s hg hl hf
    obtain ⟨f, rfl⟩ : ∃ g, f = g + 1 := ⟨f - 1, by omega⟩
    rw [signUpdate]
    by_cases h0 : left = 0
    · subst h0; simp
    · rw [if_neg h0]
      have hgot : s.read (min left 4096) = ((s.data.drop s.getPos).take (min left 4096),
          { s with getPos := s.getPos + min left 4096 }) := by
        rw [IStream.read, IStream.rawRead, if_pos hg]; dsimp only
        rw [if_pos (by simp; omega)]
      rw [hgot]; dsimp only
      have hlen : ((s.data.drop s.getPos).take (min left 4096)).length = min left 4096 := by simp; omega
      rw [hlen, ih (left - min left 4096) (by omega) f { s with getPos := s.getPos + min left 4096 } hg
        (by show s.getPos + min left 4096 + _ ≤ s.data.length; omega) (by omega), ok_bind]; dsimp only
      congr 1
      have e1 : s.getPos + min left 4096 + (left - min left 4096) = s.getPos + left := by omega
      rw [e1, ← List.drop_drop, ← List.take_add]
      congr 3
      omega

theorem setPosition_begin (s : IStream) (p : Nat) (hf : s.file = false) (hg : s.good = true) (hp : p ≤ s.data.length) :
    s.setPosition p .beginning = { s with getPos := p } := by
  obtain ⟨d, file, gp, pp, eof, fail⟩ := s
  simp only [IStream.good, Bool.and_eq_true, Bool.not_eq_true'] at hg
  obtain ⟨rfl, rfl⟩ := hg
  dsimp only at hf hp
  subst hf
  have : ¬ ((p : Int) = -1) := by omega
  simp [IStream.setPosition, IStream.position, IStream.tellg, IStream.good, IStream.seekg, IStream.target, IStream.seekable,
    this, hp]

theorem setPosition_zero (s : IStream) (hf : s.file = false) (hg : s.good = true) :
    s.setPosition 0 .beginning = { s with getPos := 0 } := setPosition_begin s 0 hf hg (Nat.zero_le _)

/-! ### Filling in -/

/-- The signature as it is written into a place of the given length. -/
def paddedHex (n : Nat) (sig : Bytes) : Bytes :=
  b! "<" ++ (sig.flatMap hex2 ++ List.replicate (n - (2 * sig.length + 2)) 0x30 ++ b! ">")

theorem hex2_length (b : Byte) : (hex2 b).length = 2 := by simp [hex2]

theorem flatMap_hex2_length (v : Bytes) : (v.flatMap hex2).length = 2 * v.length := by
  induction v with
  | nil => rfl
  | cons b v ih => simp [ih, hex2_length]; omega

theorem writeHex_length (v : Bytes) : (writeHex v).length = 2 * v.length + 2 := by
  simp only [writeHex, List.length_cons, List.length_append, flatMap_hex2_length, List.length_nil]

theorem paddedHex_length (n : Nat) (sig : Bytes) (h : 2 * sig.length + 2 ≤ n) : (paddedHex n sig).length = n := by
  simp only [paddedHex, List.length_cons, List.length_append, flatMap_hex2_length, List.length_nil, List.length_replicate]
  omega

theorem take_write_drop {A X B Y : Bytes} {p : Nat} (hp : p = A.length) (hl : Y.length ≤ X.length) :
    (A ++ (X ++ B)).take p ++ Y ++ (A ++ (X ++ B)).drop (p + Y.length) = A ++ (Y ++ (X.drop Y.length ++ B)) := by
  subst hp
  rw [List.take_left, ← List.drop_drop, List.drop_left, List.drop_append_of_le_length hl]
  simp

/-- What the signer does with an output whose two places it knows. -/
theorem beforeFlush_spec (key : Bytes → Res Bytes) (offs : List (Bytes × Slot × Nat)) (out : IStream) (A R0 B holder D : Bytes)
    (l : List Obj) (v : Bytes) (ov : Option Bytes)
    (hr : locate (b! "ByteRange") offs = .ok (⟨.arr l, ov⟩, A.length))
    (hc : locate (b! "Contents") offs = .ok (⟨.hex v, some holder⟩, A.length + R0.length + B.length))
    (hd : out.data = A ++ (R0 ++ (B ++ (holder ++ D)))) (hfile : out.file = false) (hgood : out.good = true)
    (nr : Bytes)
    (hnr : nr = writeObj (.arr [.int 0, .int ((A.length + R0.length + B.length : Nat) : Int),
      .int ((A.length + R0.length + B.length + holder.length : Nat) : Int), .int ((D.length : Nat) : Int)]))
    (hfit : nr.length ≤ R0.length) :
    (beforeFlush key (some offs) out >>= fun s => .ok s.data) =
      (do let sig ← key (A ++ (nr ++ (R0.drop nr.length ++ B)) ++ D)
          if 2 * sig.length + 2 > holder.length then .error .throw
          else .ok (A ++ (nr ++ (R0.drop nr.length ++ (B ++ (paddedHex holder.length sig ++ D)))))) := by
  obtain ⟨data, file, gp, pp, eof, fail⟩ := out
  dsimp only at hd hfile
  simp only [IStream.good, Bool.and_eq_true, Bool.not_eq_true'] at hgood
  obtain ⟨rfl, rfl⟩ := hgood
  subst hfile
  subst hd
  rw [beforeFlush]
  simp only [IStream.setOutputEnd, IStream.outputPosition, Bool.false_eq_true, if_false]
  rw [hr, ok_bind]; dsimp only
  rw [hc, ok_bind]; dsimp only
  have hlen' : (((A ++ (R0 ++ (B ++ (holder ++ D)))).length : Nat) : Int) -
      ((A.length + R0.length + B.length + holder.length : Nat) : Int) = (D.length : Nat) := by
    simp; omega
  rw [hlen', ← hnr]
  have hw : IStream.write (IStream.setOutputPosition ⟨A ++ (R0 ++ (B ++ (holder ++ D))), false, gp,
      (A ++ (R0 ++ (B ++ (holder ++ D)))).length, false, false⟩ (A.length : Nat)) nr =
      ⟨A ++ (nr ++ (R0.drop nr.length ++ (B ++ (holder ++ D)))), false, gp, A.length + nr.length, false, false⟩ := by
    rw [IStream.setOutputPosition]
    simp only [Bool.false_eq_true, if_false]
    rw [if_pos ⟨by omega, by simp; omega⟩, IStream.write, if_pos (by rfl)]
    dsimp only
    rw [take_write_drop (by simp) hfit]
    simp
  rw [hw]
  have hl : (nr ++ R0.drop nr.length).length = R0.length := by simp; omega
  have hl' : nr.length + (R0.drop nr.length).length = R0.length := by simpa using hl
  have hdl : (A ++ (nr ++ (R0.drop nr.length ++ (B ++ (holder ++ D))))).length =
      A.length + R0.length + B.length + holder.length + D.length := by
    simp only [List.length_append]; omega
  rw [setPosition_zero _ rfl rfl]
  rw [signUpdate_spec _ _ _ rfl (by dsimp only; rw [hdl]; omega) (by dsimp only; rw [hdl]; omega), ok_bind]
  dsimp only
  rw [setPosition_begin _ _ rfl rfl (by dsimp only; rw [hdl]; omega)]
  rw [signUpdate_spec _ _ _ rfl (by dsimp only; rw [hdl]; simp) (by rw [hdl]; simp; omega), ok_bind]
  dsimp only
  have hm1 : ((A ++ (nr ++ (R0.drop nr.length ++ (B ++ (holder ++ D))))).drop 0).take (A.length + R0.length + B.length) =
      A ++ (nr ++ (R0.drop nr.length ++ B)) := by
    have : A ++ (nr ++ (R0.drop nr.length ++ (B ++ (holder ++ D)))) =
      (A ++ (nr ++ (R0.drop nr.length ++ B))) ++ (holder ++ D) := by simp
    rw [List.drop_zero, this, List.take_left' (by simp only [List.length_append]; omega)]
  have hm2 : ((A ++ (nr ++ (R0.drop nr.length ++ (B ++ (holder ++ D))))).drop
      (A.length + R0.length + B.length + holder.length)).take D.length = D := by
    have : A ++ (nr ++ (R0.drop nr.length ++ (B ++ (holder ++ D)))) =
      (A ++ (nr ++ (R0.drop nr.length ++ (B ++ holder)))) ++ D := by simp
    rw [this, List.drop_left' (by simp only [List.length_append]; omega), List.take_length]
  rw [hm1, Int.toNat_natCast, hm2]
  cases key (A ++ (nr ++ (R0.drop nr.length ++ B)) ++ D) with
  | error e => rfl
  | ok sig =>
    rw [ok_bind, ok_bind, writeHex_length]
    by_cases h : 2 * sig.length + 2 > holder.length
    · rw [if_pos h, if_pos h]; rfl
    · rw [if_neg h, if_neg h, ok_bind]
      have hpad : (writeHex sig).take (2 * sig.length + 2 - 1) ++ List.replicate (holder.length - (2 * sig.length + 2)) 0x30 ++
          (writeHex sig).drop (2 * sig.length + 2 - 1) = paddedHex holder.length sig := by
        have e : writeHex sig = (b! "<" ++ sig.flatMap hex2) ++ b! ">" := by simp [writeHex]
        have el : (b! "<" ++ sig.flatMap hex2).length = 2 * sig.length + 2 - 1 := by
          rw [List.length_append, flatMap_hex2_length]; simp; omega
        rw [e, List.take_left' el, List.drop_left' el]
        simp [paddedHex]
      rw [hpad, IStream.setOutputPosition]
      simp only [Bool.false_eq_true, if_false]
      rw [if_pos ⟨by omega, by rw [hdl]; omega⟩, IStream.write, if_pos (by rfl)]
      dsimp only
      have : A ++ (nr ++ (R0.drop nr.length ++ (B ++ (holder ++ D)))) =
        (A ++ (nr ++ (R0.drop nr.length ++ B))) ++ (holder ++ D) := by simp
      rw [this, take_write_drop (by simp only [List.length_append]; omega) (by rw [paddedHex_length _ _ (by omega)]),
        paddedHex_length _ _ (by omega), List.drop_length]
      simp

/-! ### The dictionary in the finished file -/

theorem range_fits (a b c : Nat) (ha : a ≤ 9223372036854775807) (hb : b ≤ 9223372036854775807)
    (hc : c ≤ 9223372036854775807) : (writeObj (.arr [.int 0, .int a, .int b, .int c])).length ≤ 100 := by
  have h : ∀ n : Nat, n ≤ 9223372036854775807 → (intDec (n : Int)).length ≤ 19 := by
    intro n hn
    have := natDecAux_length (n + 1) n 18 [] (by omega)
    have e : intDec (n : Int) = natDec n := by rw [intDec, if_neg (by omega)]; rfl
    rw [e, natDec]; simpa using this
  have h0 : (intDec 0).length = 1 := rfl
  have := h a ha
  have := h b hb
  have := h c hc
  simp only [writeObj, writeItems, List.length_cons, List.length_append, List.length_nil, h0]
  omega

theorem sep_blanks (n : Nat) : Sep (List.replicate n 0x20) := by
  induction n with
  | zero => exact .nil
  | succ n ih => exact .ws 32 _ (by decide) ih

/-- An entry of a text: key, value, text of the value, and separators behind it. -/
structure Piece where
  key : Bytes
  obj : Obj
  text : Bytes
  gap : Bytes

theorem pieces_entries (l : List Piece) (h : ∀ p ∈ l, Denotes p.obj p.text ∧ Sep p.gap) :
    (∀ sep, Sep sep → Entries (l.map (fun p => (p.key, p.obj))) (sep ++ slotsText true (l.map (fun p => (p.key, p.text ++ p.gap))))) ∧
    (∀ sep, Sep sep → Entries (l.map (fun p => (p.key, p.obj))) (sep ++ slotsText false (l.map (fun p => (p.key, p.text ++ p.gap))))) := by
  induction l with
  | nil => exact ⟨fun sep hs => by simpa [slotsText] using Entries.nil sep hs,
      fun sep hs => by simpa [slotsText] using Entries.nil sep hs⟩
  | cons p l ih =>
    obtain ⟨h1, h2⟩ := h p (by simp)
    obtain ⟨-, ihf⟩ := ih (fun q hq => h q (List.mem_cons_of_mem _ hq))
    have key : ∀ sep, Sep sep → Entries ((p :: l).map (fun p => (p.key, p.obj)))
        (sep ++ (writeName p.key ++ (b! " " ++ (p.text ++ (p.gap ++ slotsText false (l.map (fun p => (p.key, p.text ++ p.gap)))))))) := by
      intro sep hs
      have hb : Boundary p.text (p.gap ++ slotsText false (l.map (fun p => (p.key, p.text ++ p.gap)))) := by
        right
        by_cases hg : p.gap = []
        · rw [hg]
          cases l with
          | nil => intro d hd; simp [slotsText] at hd
          | cons q l => exact ends_space _
        · exact sep_ends _ _ h2 hg
      have := Entries.cons p.key p.obj (l.map (fun p => (p.key, p.obj))) sep (encodeName p.key) [0x20] p.text _ hs
        (encodeName_body _) sep_space (ends_space _) h1 (ihf p.gap h2) hb
      simpa [writeName] using this
    constructor
    · intro sep hs
      have := key sep hs
      simpa [slotsText] using this
    · intro sep hs
      have := key (sep ++ [0x20]) (sep_append hs sep_space)
      simpa [slotsText] using this

theorem zeros_hex2 (n : Nat) : List.replicate (2 * n) (0x30 : Byte) = (List.replicate n (0 : Byte)).flatMap hex2 := by
  induction n with
  | zero => rfl
  | succ n ih =>
    rw [List.replicate_succ, List.flatMap_cons, ← ih]
    rfl

/-- The padded signature is a hexadecimal string with zeros behind the signature. -/
theorem paddedHex_denotes (n : Nat) (sig : Bytes) (h : 2 * sig.length + 2 ≤ 2 * n) :
    Denotes (.hex (sig ++ List.replicate (n - 1 - sig.length) 0)) (paddedHex (2 * n) sig) := by
  have e : paddedHex (2 * n) sig = 60 :: ((sig ++ List.replicate (n - 1 - sig.length) 0).flatMap hex2 ++ [62]) := by
    rw [paddedHex, List.flatMap_append, ← zeros_hex2]
    have : 2 * n - (2 * sig.length + 2) = 2 * (n - 1 - sig.length) := by omega
    rw [this]; simp
  rw [e]
  exact .hex _ _ (hexBytes_hex2 _)

/-- The entry of the certificate. -/
def certEntries (o : SignSettings) : List (Bytes × Obj) := (o.certificate.map (fun v => (b! "Cert", Obj.hex v))).toList

/-- The entries behind `Contents`. -/
def laterEntries (o : SignSettings) : List (Bytes × Obj) :=
  [(b! "Filter", .name (b! "Adobe.PPKLite"))] ++ (o.location.map (fun v => (b! "Location", Obj.lit v))).toList ++
  (o.time.map (fun v => (b! "M", Obj.lit v))).toList ++ (o.name.map (fun v => (b! "Name", Obj.lit v))).toList ++
  (o.reason.map (fun v => (b! "Reason", Obj.lit v))).toList ++
  [(b! "SubFilter", .name (b! "adbe.pkcs7.detached")), (b! "Type", .name (b! "Sig"))]

/-- Entries without replaced values. -/
def plainSlots (l : List (Bytes × Obj)) : List (Bytes × Slot) := l.map (fun x => (x.1, ⟨x.2, none⟩))

theorem signatureDict_eq (o : SignSettings) : signatureDict o =
    (b! "ByteRange", ⟨.arr [], some (List.replicate 100 0x20)⟩) :: (plainSlots (certEntries o) ++
      (b! "Contents", ⟨.hex [], some (List.replicate 32768 0x20)⟩) :: plainSlots (laterEntries o)) := by
  obtain ⟨c, n, l, r, t⟩ := o
  unfold signatureDict
  generalize List.replicate 100 (0x20 : Byte) = R
  generalize List.replicate 32768 (0x20 : Byte) = C
  cases c <;> cases n <;> cases l <;> cases r <;> cases t <;> rfl

/-- The dictionary that the finished file has. -/
def signedDict (o : SignSettings) (a b c : Nat) (v : Bytes) : Dict :=
  (b! "ByteRange", .arr [.int 0, .int a, .int b, .int c]) :: (certEntries o ++ (b! "Contents", .hex v) :: laterEntries o)

theorem signedDict_sorted (o : SignSettings) (a b c : Nat) (v : Bytes) : SortedKeys (signedDict o a b c v) := by
  have h : SortedKeys (signatureDict o) := by
    unfold signatureDict insertSetting
    generalize List.replicate 100 (0x20 : Byte) = R
    generalize List.replicate 32768 (0x20 : Byte) = C
    repeat' first | exact List.Pairwise.nil | apply mapInsert_sorted | split
  rw [signatureDict_eq] at h
  unfold SortedKeys at h ⊢
  revert h
  generalize List.replicate 100 (0x20 : Byte) = R
  generalize List.replicate 32768 (0x20 : Byte) = C
  intro h
  have e : (signedDict o a b c v).map (·.1) = ((b! "ByteRange", ⟨.arr [], some R⟩) ::
      (plainSlots (certEntries o) ++
      (b! "Contents", ⟨.hex [], some C⟩) :: plainSlots (laterEntries o)) : List (Bytes × Slot)).map (·.1) := by
    simp [signedDict, plainSlots, Function.comp_def]
  rw [← List.pairwise_map (f := Prod.fst) (R := fun a b => bytesLt a b = true)] at h ⊢
  rw [e]; exact h

theorem settings_savable (o : SignSettings) : ∀ x ∈ certEntries o ++ laterEntries o, Savable x.2 ∧ x.2 ≠ .null := by
  obtain ⟨c, n, l, r, t⟩ := o
  intro x hx
  simp only [certEntries, laterEntries, List.mem_append, Option.mem_toList, Option.map_eq_some_iff, List.mem_cons,
    List.not_mem_nil, or_false] at hx
  rcases hx with ⟨v, -, rfl⟩ | ((((rfl | ⟨v, -, rfl⟩) | ⟨v, -, rfl⟩) | ⟨v, -, rfl⟩) | ⟨v, -, rfl⟩) | rfl | rfl
  · exact ⟨.hex _, by simp⟩
  · exact ⟨.name _, by simp⟩
  · exact ⟨.lit _, by simp⟩
  · exact ⟨.lit _, by simp⟩
  · exact ⟨.lit _, by simp⟩
  · exact ⟨.lit _, by simp⟩
  · exact ⟨.name _, by simp⟩
  · exact ⟨.name _, by simp⟩

theorem valueAt_append (k : Bytes) (l1 l2 : List (Bytes × Obj)) :
    valueAt k (l1 ++ l2) = (valueAt k l1).or (valueAt k l2) := by
  induction l1 with
  | nil => rfl
  | cons x l1 ih =>
    obtain ⟨k', o⟩ := x
    rw [List.cons_append, valueAt, valueAt]
    split
    · rfl
    · exact ih

theorem valueAt_option (k k' : Bytes) (f : Bytes → Obj) (v : Option Bytes) :
    valueAt k (v.map (fun v => (k', f v))).toList = if k = k' then v.map f else none := by
  cases v with
  | none => simp [valueAt]
  | some v => simp [valueAt]

theorem signedDict_others (o : SignSettings) (a b c : Nat) (v : Bytes) (k : Bytes) (h1 : k ≠ b! "ByteRange")
    (h2 : k ≠ b! "Contents") :
    valueAt k (signedDict o a b c v) = valueAt k (signatureEntries o.certificate o.name o.location o.reason o.time) := by
  simp only [signedDict, signatureEntries, certEntries, laterEntries, valueAt_append, valueAt, valueAt_option, h1, h2, if_false]
  by_cases k1 : k = b! "Cert"
  · subst k1; cases o.certificate <;> simp
  by_cases k2 : k = b! "Name"
  · subst k2; cases o.name <;> simp
  by_cases k3 : k = b! "Location"
  · subst k3; cases o.location <;> simp
  by_cases k4 : k = b! "Reason"
  · subst k4; cases o.reason <;> simp
  by_cases k5 : k = b! "M"
  · subst k5; cases o.time <;> simp
  simp only [k1, k2, k3, k4, k5, if_false, Option.none_or, Option.or_none]
  by_cases k6 : k = b! "Filter"
  · subst k6; simp
  by_cases k7 : k = b! "SubFilter"
  · subst k7; simp
  by_cases k8 : k = b! "Type"
  · subst k8; simp
  simp [k6, k7, k8]

/-! ### The whole -/

theorem slotsText_append (l1 l2 : List (Bytes × Bytes)) : ∀ first, slotsText first (l1 ++ l2) =
    slotsText first l1 ++ slotsText (first && l1.isEmpty) l2 := by
  induction l1 with
  | nil => intro first; simp [slotsText]
  | cons x l1 ih =>
    intro first
    obtain ⟨k, t⟩ := x
    rw [List.cons_append, slotsText, slotsText, ih]
    simp

theorem plainSlots_text (l : List (Bytes × Obj)) :
    (plainSlots l).map (fun x => (x.1, x.2.text)) = l.map (fun x => (x.1, writeObj x.2)) := by
  simp [plainSlots, Slot.text, Function.comp_def]

theorem trackingId_inj {n m : Nat} (h : trackingId n 0 = trackingId m 0) : n = m := by
  have h' : natDec n = natDec m := List.append_cancel_right h
  have h1 := (natDec_facts n).2.2
  have h2 := (natDec_facts m).2.2
  rw [h'] at h1; omega

/-- The parts of the written file around the two places. -/
structure Parts where
  A : Bytes
  B : Bytes
  D : Bytes

/-- The parts for the objects before and behind the signature dictionary. -/
def parts (o : SignSettings) (num gen : Nat) (pre post : Bytes) : Parts :=
  ⟨pre ++ objHead num gen ++ b! "<<" ++ b! "/ByteRange ",
    slotsText false ((certEntries o).map (fun x => (x.1, writeObj x.2))) ++ b! " /Contents ",
    slotsText false ((laterEntries o).map (fun x => (x.1, writeObj x.2))) ++ b! ">>" ++ b! "\nendobj\n" ++ post⟩

/-- The array of byte ranges for the parts. -/
def newRanges (p : Parts) : Bytes :=
  writeObj (.arr [.int 0, .int ((p.A.length + 100 + p.B.length : Nat) : Int),
    .int ((p.A.length + 100 + p.B.length + 32768 : Nat) : Int), .int ((p.D.length : Nat) : Int)])

/-- The finished file. -/
def signedFile (p : Parts) (sig : Bytes) : Bytes :=
  p.A ++ (newRanges p ++ (List.replicate (100 - (newRanges p).length) 0x20 ++ (p.B ++ (paddedHex 32768 sig ++ p.D))))

theorem sigText (o : SignSettings) (num gen : Nat) (id : Bytes) (pre post : Bytes) :
    pre ++ (OutObj.tracked num gen id (signatureDict o)).text ++ post =
      (parts o num gen pre post).A ++ (List.replicate 100 0x20 ++ ((parts o num gen pre post).B ++
        (List.replicate 32768 0x20 ++ (parts o num gen pre post).D))) := by
  have hb : writeName (b! "ByteRange") = b! "/ByteRange" := by decide
  have hc : writeName (b! "Contents") = b! "/Contents" := by decide
  rw [OutObj.text, signatureDict_eq]
  generalize List.replicate 100 (0x20 : Byte) = R
  generalize List.replicate 32768 (0x20 : Byte) = C
  rw [List.map_cons, List.map_append, List.map_cons, slotsText, slotsText_append, slotsText, plainSlots_text, plainSlots_text, hb, hc]
  simp [parts, Slot.text]

theorem writeSigned_spec (key : Bytes → Res Bytes) (o : SignSettings) (num gen : Nat) (id : Bytes)
    (before after : List OutObj) (head : Bytes) (tail : Bytes → Bytes)
    (hother : ∀ w ∈ before ++ after, w.other id)
    (hsize : (unsignedFile id head (before ++ .tracked num gen id (signatureDict o) :: after) tail).length ≤ 9223372036854775807) :
    ∃ post p, p = parts o num gen (head ++ before.flatMap OutObj.text) post ∧
      unsignedFile id head (before ++ .tracked num gen id (signatureDict o) :: after) tail =
        p.A ++ (List.replicate 100 0x20 ++ (p.B ++ (List.replicate 32768 0x20 ++ p.D))) ∧
      (newRanges p).length ≤ 100 ∧
      writeSigned key id head (before ++ .tracked num gen id (signatureDict o) :: after) tail =
      (do let sig ← key (p.A ++ (newRanges p ++ (List.replicate (100 - (newRanges p).length) 0x20 ++ p.B)) ++ p.D)
          if 2 * sig.length + 2 > 32768 then .error .throw else .ok (signedFile p sig)) := by
  generalize hU : unsignedFile id head (before ++ .tracked num gen id (signatureDict o) :: after) tail = U at hsize ⊢
  have hU' := hU
  rw [unsignedFile] at hU'
  generalize hout : (writeAllTracked id head none (before ++ .tracked num gen id (signatureDict o) :: after)).1 = out at hU'
  have hout' := hout
  rw [writeAllTracked_text, List.flatMap_append, List.flatMap_cons] at hout'
  have hcut : U = (head ++ before.flatMap OutObj.text) ++ (OutObj.tracked num gen id (signatureDict o)).text ++
      (after.flatMap OutObj.text ++ tail out) := by
    rw [← hU', ← hout']; simp
  rw [sigText] at hcut
  generalize hp : parts o num gen (head ++ before.flatMap OutObj.text) (after.flatMap OutObj.text ++ tail out) = p at hcut
  have hlen : U.length = p.A.length + 100 + p.B.length + 32768 + p.D.length := by
    rw [hcut]; simp only [List.length_append, List.length_replicate]; omega
  have hfit : (newRanges p).length ≤ 100 := range_fits _ _ _ (by omega) (by omega) (by omega)
  refine ⟨_, p, hp.symm, hcut, hfit, ?_⟩
  -- the dictionary of the signer
  have hdict : ∃ offs, (writeAllTracked id head none (before ++ .tracked num gen id (signatureDict o) :: after)).2 = some offs ∧
      locate (b! "ByteRange") offs = .ok (⟨.arr [], some (List.replicate 100 0x20)⟩, p.A.length) ∧
      locate (b! "Contents") offs = .ok (⟨.hex [], some (List.replicate 32768 0x20)⟩,
        p.A.length + (List.replicate 100 (0x20 : Byte)).length + p.B.length) := by
    have hb : writeName (b! "ByteRange") = b! "/ByteRange" := by decide
    have hc : writeName (b! "Contents") = b! "/Contents" := by decide
    rw [writeAllTracked_append, writeAllTracked_text, writeAllTracked_other id before (fun w hw => hother w (by simp [hw])),
      writeAllTracked, writeTracked]
    dsimp only
    rw [writeAllTracked_other id after (fun w hw => hother w (by simp [hw])), if_pos rfl]
    refine ⟨_, rfl, ?_, ?_⟩
    · rw [signatureDict_eq]
      generalize plainSlots (certEntries o) ++ _ = l2
      obtain ⟨A, h1, h2, -⟩ := locate_writeSlots (b! "ByteRange") ⟨.arr [], some (List.replicate 100 0x20)⟩ l2 [] true
        (head ++ before.flatMap OutObj.text ++ objHead num gen ++ b! "<<").length (by simp)
      rw [List.nil_append] at h1
      rw [h1, h2, hb, ← hp]
      simp [parts, slotsText]
      omega
    · rw [signatureDict_eq, ← List.cons_append]
      obtain ⟨A, h1, h2, -⟩ := locate_writeSlots (b! "Contents") ⟨.hex [], some (List.replicate 32768 0x20)⟩
        (plainSlots (laterEntries o))
        ((b! "ByteRange", ⟨.arr [], some (List.replicate 100 0x20)⟩) :: plainSlots (certEntries o)) true
        (head ++ before.flatMap OutObj.text ++ objHead num gen ++ b! "<<").length (by
          intro x hx
          simp only [List.mem_cons, plainSlots, List.mem_map, certEntries, Option.mem_toList, Option.map_eq_some_iff] at hx
          rcases hx with rfl | ⟨y, ⟨v, -, rfl⟩, rfl⟩ <;> simp)
      rw [h1, h2, hc, ← hp, List.map_cons, slotsText, hb, plainSlots_text]
      generalize List.replicate 100 (0x20 : Byte) = R
      generalize List.replicate 32768 (0x20 : Byte) = C
      simp [parts, Slot.text]
      omega
  obtain ⟨offs, hd1, hd2, hd3⟩ := hdict
  have := beforeFlush_spec key offs { IStream.ofBytes false U with putPos := U.length } p.A (List.replicate 100 0x20) p.B
    (List.replicate 32768 0x20) p.D [] [] _ hd2 hd3 hcut rfl rfl (newRanges p)
    (by simp only [List.length_replicate]; rfl) (by rw [List.length_replicate]; exact hfit)
  rw [writeSigned, hU, hd1]
  refine this.trans ?_
  simp only [List.length_replicate, List.drop_replicate, signedFile]

theorem signedDict_denotes (o : SignSettings) (num gen : Nat) (pre post sig : Bytes)
    (hsig : sig.length ≤ 16383) (a b c : Nat)
    (ha : a = (parts o num gen pre post).A.length + 100 + (parts o num gen pre post).B.length)
    (hb : b = a + 32768) (hc : c = (parts o num gen pre post).D.length) (hmax : b + c ≤ 9223372036854775807) :
    ∃ t, signedFile (parts o num gen pre post) sig = pre ++ (objHead num gen ++ (t ++ (b! "\nendobj" ++ (b! "\n" ++ post)))) ∧
      Denotes (.dict (signedDict o a b c (sig ++ List.replicate (16383 - sig.length) 0))) t := by
  have hbn : writeName (b! "ByteRange") = b! "/ByteRange" := by decide
  have hcn : writeName (b! "Contents") = b! "/Contents" := by decide
  let v := sig ++ List.replicate (16383 - sig.length) (0 : Byte)
  have hv : Denotes (.hex v) (paddedHex 32768 sig) := by
    have := paddedHex_denotes 16384 sig (by omega)
    exact this
  let nr := newRanges (parts o num gen pre post)
  have hnr : Denotes (.arr [.int 0, .int a, .int b, .int c]) nr := by
    have e : nr = writeObj (.arr [.int 0, .int a, .int b, .int c]) := by
      show newRanges _ = _
      rw [newRanges, hb, ha, hc]
    rw [e]
    refine writeObj_denotes (.arr _ ?_)
    intro x hx
    simp only [List.mem_cons, List.not_mem_nil, or_false] at hx
    rcases hx with rfl | rfl | rfl | rfl <;> exact .int _ (by omega) (by omega)
  let gap := List.replicate (100 - nr.length) (0x20 : Byte)
  let ofPlain : Bytes × Obj → Piece := fun x => ⟨x.1, x.2, writeObj x.2, []⟩
  let pieces : List Piece := ⟨b! "ByteRange", .arr [.int 0, .int a, .int b, .int c], nr, gap⟩ ::
    ((certEntries o).map ofPlain ++ ⟨b! "Contents", .hex v, paddedHex 32768 sig, []⟩ :: (laterEntries o).map ofPlain)
  have hpieces : ∀ p ∈ pieces, Denotes p.obj p.text ∧ Sep p.gap := by
    intro p hp
    simp only [pieces, List.mem_cons, List.mem_append, List.mem_map] at hp
    rcases hp with rfl | ⟨x, hx, rfl⟩ | rfl | ⟨x, hx, rfl⟩
    · exact ⟨hnr, sep_blanks _⟩
    · exact ⟨writeObj_denotes (settings_savable o x (by simp [hx])).1, .nil⟩
    · exact ⟨hv, .nil⟩
    · exact ⟨writeObj_denotes (settings_savable o x (by simp [hx])).1, .nil⟩
  have hmap : pieces.map (fun p => (p.key, p.obj)) = signedDict o a b c v := by
    simp [pieces, signedDict, ofPlain, Function.comp_def]
  have hent := (pieces_entries pieces hpieces).1 [] .nil
  rw [hmap, List.nil_append] at hent
  refine ⟨_, ?_, .dict _ _ _ hent (signedDict_sorted o a b c v) (firstValue_noNull _ ?_)⟩
  · have ht : ∀ l : List (Bytes × Obj), (l.map ofPlain).map (fun p => (p.key, p.text ++ p.gap)) =
        l.map (fun x => (x.1, writeObj x.2)) := by
      intro l; simp [ofPlain, Function.comp_def]
    have e : slotsText true (pieces.map (fun p => (p.key, p.text ++ p.gap))) =
        b! "/ByteRange " ++ (nr ++ gap) ++ (slotsText false ((certEntries o).map (fun x => (x.1, writeObj x.2))) ++
          (b! " /Contents " ++ paddedHex 32768 sig ++ slotsText false ((laterEntries o).map (fun x => (x.1, writeObj x.2))))) := by
      show slotsText true (List.map _ (_ :: (_ ++ _ :: _))) = _
      rw [List.map_cons, List.map_append, List.map_cons, ht, ht, slotsText, slotsText_append, slotsText]
      dsimp only
      rw [hbn, hcn]
      generalize paddedHex 32768 sig = P
      simp
    rw [e, signedFile]
    generalize paddedHex 32768 sig = P
    show _ ++ (nr ++ (gap ++ _)) = _
    generalize nr = nr'
    generalize gap = gap'
    simp [parts]
  · intro x hx
    simp only [signedDict, List.mem_cons, List.mem_append] at hx
    rcases hx with rfl | hx | rfl | hx
    · simp
    · exact (settings_savable o x (by simp [hx])).2
    · simp
    · exact (settings_savable o x (by simp [hx])).2

/-- Reading an object whose text denotes a dictionary. -/
theorem parseIndirect_dict (e : Env) (n g : Nat) (d : Dict) (t rest : Bytes) (hn : n ≤ 9223372036854775807) (hg : g ≤ 65535)
    (hden : Denotes (.dict d) t) :
    parseIndirect e (objHead n g ++ (t ++ (b! "\nendobj" ++ (b! "\n" ++ rest)))) =
      .ok (n, g, .direct (.dict d), b! "\n" ++ rest) := by
  have hk := skip_keyword sep_lf 0x65 (b! "ndobj") (b! "\n" ++ rest) (by decide) (by decide) (by decide) (ends_lf _)
  have := parseIndirect_frame e n g t (b! "\n" ++ rest) (.direct (.dict d)) hn hg (ends_lf _) (by
    intro f hf
    refine (denotes_parses e hden _ (Or.inr (ends_lf _)) ?_).1 f hf
    exact follow_of_token hk (by decide) (by decide) (by decide))
  rw [← this]
  congr 1
  simp [objHead]

end VPdf
