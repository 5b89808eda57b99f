/-
  Signing into a file: what the signer does.
-/
import Verif.Lemmas.Signing
import Verif.Model.SigningFile
import Verif.Lemmas.Stream

namespace VPdf
open Spec

theorem fileCall_seekOut_end (d : Bytes) (gp pp : Nat) :
    (IStream.mk d true gp pp false false).fileCall (.seekOut 0 .end_) =
      (.done, IStream.mk d true d.length d.length false false) := by
  simp [IStream.fileCall, IStream.fileSeekOut]

theorem fileCall_seekOut_begin (d : Bytes) (gp pp q : Nat) :
    (IStream.mk d true gp pp false false).fileCall (.seekOut (q : Int) .beginning) =
      (.done, IStream.mk d true q q false false) := by
  simp [IStream.fileCall, IStream.fileSeekOut]

theorem fileCall_write (d : Bytes) (gp q : Nat) (w : Bytes) (h : q ≤ d.length) :
    (IStream.mk d true gp q false false).fileCall (.write w) =
      (.done, IStream.mk (d.take q ++ w ++ d.drop (q + w.length)) true (q + w.length) (q + w.length) false false) := by
  simp [IStream.fileCall, IStream.fileWrite, IStream.good, Nat.sub_eq_zero_of_le h]

theorem fileCall_seekIn_begin' (d : Bytes) (gp pp q : Nat) (_h : q ≤ d.length) :
    (IStream.mk d true gp pp false false).fileCall (.seekIn (q : Int) .beginning) =
      (.done, IStream.mk d true q q false false) := by
  have : ¬ ((q : Int) = -1) := by omega
  simp [IStream.fileCall, IStream.pipeCall, IStream.setPosition, IStream.position, IStream.tellg, IStream.good, IStream.seekg,
    IStream.target, IStream.seekable, this]

theorem fileCall_seekIn_begin (d : Bytes) (gp pp q : Nat) (_h : q ≤ d.length) :
    (IStream.mk d true gp pp false false).fileCall (.seekIn 0 .beginning) =
      (.done, IStream.mk d true 0 0 false false) := fileCall_seekIn_begin' d gp pp 0 (Nat.zero_le _)

theorem fileSignUpdate_spec (f : Nat) (d : Bytes) (gp pp left : Nat) (h : gp + left ≤ d.length) (hf : left < f) :
    fileSignUpdate f (IStream.mk d true gp pp false false) left =
      .ok ((d.drop gp).take left, IStream.mk d true (gp + left) (gp + left) false false) := by
  rw [fileSignUpdate, signUpdate_spec left f _ rfl h hf, ok_bind]

/-- What the signer does with a file whose two places it knows. -/
theorem fileBeforeFlush_spec (key : Bytes → Res Bytes) (offs : List (Bytes × Slot × Nat)) (out : IStream) (A R0 B holder D : Bytes)
    (l : List Obj) (v : Bytes) (ov : Option Bytes)
    (hr : locate (b! "ByteRange") offs = .ok (⟨.arr l, ov⟩, A.length))
    (hc : locate (b! "Contents") offs = .ok (⟨.hex v, some holder⟩, A.length + R0.length + B.length))
    (hd : out.data = A ++ (R0 ++ (B ++ (holder ++ D)))) (hfile : out.file = true) (hgood : out.good = true)
    (nr : Bytes)
    (hnr : nr = writeObj (.arr [.int 0, .int ((A.length + R0.length + B.length : Nat) : Int),
      .int ((A.length + R0.length + B.length + holder.length : Nat) : Int), .int ((D.length : Nat) : Int)]))
    (hfit : nr.length ≤ R0.length) :
    (fileBeforeFlush key (some offs) out >>= fun s => .ok s.data) =
      (do let sig ← key (A ++ (nr ++ (R0.drop nr.length ++ B)) ++ D)
          if 2 * sig.length + 2 > holder.length then .error .throw
          else .ok (A ++ (nr ++ (R0.drop nr.length ++ (B ++ (paddedHex holder.length sig ++ D)))))) := by
  obtain ⟨data, file, gp, pp, eof, fail⟩ := out
  dsimp only at hd hfile
  simp only [IStream.good, Bool.and_eq_true, Bool.not_eq_true'] at hgood
  obtain ⟨rfl, rfl⟩ := hgood
  subst hfile
  subst hd
  rw [fileBeforeFlush]
  have h0 : (IStream.mk (A ++ (R0 ++ (B ++ (holder ++ D)))) true gp pp false false).fileCall (.seekOut 0 .end_) =
      (.done, IStream.mk (A ++ (R0 ++ (B ++ (holder ++ D)))) true (A ++ (R0 ++ (B ++ (holder ++ D)))).length
        (A ++ (R0 ++ (B ++ (holder ++ D)))).length false false) := by
    rw [fileCall_seekOut_end]
  rw [h0]
  simp only [IStream.outputPosition, Bool.false_eq_true, if_false]
  rw [hr, ok_bind]; dsimp only
  rw [hc, ok_bind]; dsimp only
  have hlen' : (((A ++ (R0 ++ (B ++ (holder ++ D)))).length : Nat) : Int) -
      ((A.length + R0.length + B.length + holder.length : Nat) : Int) = (D.length : Nat) := by
    simp; omega
  rw [hlen', ← hnr]
  rw [fileCall_seekOut_begin, fileCall_write _ _ _ _ (by simp), take_write_drop (by simp) hfit]
  have hl : (nr ++ R0.drop nr.length).length = R0.length := by simp; omega
  have hl' : nr.length + (R0.drop nr.length).length = R0.length := by simpa using hl
  have hdl : (A ++ (nr ++ (R0.drop nr.length ++ (B ++ (holder ++ D))))).length =
      A.length + R0.length + B.length + holder.length + D.length := by
    simp only [List.length_append]; omega
  rw [fileCall_seekIn_begin _ _ _ 0 (Nat.zero_le _),
    fileSignUpdate_spec _ _ _ _ _ (by rw [hdl]; omega) (by rw [hdl]; omega), ok_bind]
  dsimp only
  rw [fileCall_seekIn_begin' _ _ _ _ (by rw [hdl]; omega),
    fileSignUpdate_spec _ _ _ _ _ (by rw [hdl]; simp) (by rw [hdl]; simp; omega), ok_bind]
  dsimp only
  have hm1 : ((A ++ (nr ++ (R0.drop nr.length ++ (B ++ (holder ++ D))))).drop 0).take (A.length + R0.length + B.length) =
      A ++ (nr ++ (R0.drop nr.length ++ B)) := by
    have : A ++ (nr ++ (R0.drop nr.length ++ (B ++ (holder ++ D)))) =
      (A ++ (nr ++ (R0.drop nr.length ++ B))) ++ (holder ++ D) := by simp
    rw [List.drop_zero, this, List.take_left' (by simp only [List.length_append]; omega)]
  have hm2 : ((A ++ (nr ++ (R0.drop nr.length ++ (B ++ (holder ++ D))))).drop
      (A.length + R0.length + B.length + holder.length)).take D.length = D := by
    have : A ++ (nr ++ (R0.drop nr.length ++ (B ++ (holder ++ D)))) =
      (A ++ (nr ++ (R0.drop nr.length ++ (B ++ holder)))) ++ D := by simp
    rw [this, List.drop_left' (by simp only [List.length_append]; omega), List.take_length]
  rw [hm1, Int.toNat_natCast, hm2]
  cases key (A ++ (nr ++ (R0.drop nr.length ++ B)) ++ D) with
  | error e => rfl
  | ok sig =>
    rw [ok_bind, ok_bind, writeHex_length]
    by_cases h : 2 * sig.length + 2 > holder.length
    · rw [if_pos h, if_pos h]; rfl
    · rw [if_neg h, if_neg h, ok_bind]
      have hpad : (writeHex sig).take (2 * sig.length + 2 - 1) ++ List.replicate (holder.length - (2 * sig.length + 2)) 0x30 ++
          (writeHex sig).drop (2 * sig.length + 2 - 1) = paddedHex holder.length sig := by
        have e : writeHex sig = (b! "<" ++ sig.flatMap hex2) ++ b! ">" := by simp [writeHex]
        have el : (b! "<" ++ sig.flatMap hex2).length = 2 * sig.length + 2 - 1 := by
          rw [List.length_append, flatMap_hex2_length]; simp; omega
        rw [e, List.take_left' el, List.drop_left' el]
        simp [paddedHex]
      rw [hpad, fileCall_seekOut_begin, fileCall_write _ _ _ _ (by rw [hdl]; omega)]
      dsimp only
      have : A ++ (nr ++ (R0.drop nr.length ++ (B ++ (holder ++ D)))) =
        (A ++ (nr ++ (R0.drop nr.length ++ B))) ++ (holder ++ D) := by simp
      rw [this, take_write_drop (by simp only [List.length_append]; omega) (by rw [paddedHex_length _ _ (by omega)]),
        paddedHex_length _ _ (by omega), List.drop_length]
      simp

theorem writeSignedToFile_eq (key : Bytes → Res Bytes) (o : SignSettings) (num gen : Nat) (id : Bytes)
    (before after : List OutObj) (head : Bytes) (tail : Bytes → Bytes)
    (hother : ∀ w ∈ before ++ after, w.other id)
    (hsize : (unsignedFile id head (before ++ .tracked num gen id (signatureDict o) :: after) tail).length ≤ 9223372036854775807) :
    writeSignedToFile key id head (before ++ .tracked num gen id (signatureDict o) :: after) tail =
      writeSigned key id head (before ++ .tracked num gen id (signatureDict o) :: after) tail := by
  generalize hU : unsignedFile id head (before ++ .tracked num gen id (signatureDict o) :: after) tail = U at hsize ⊢
  have hU' := hU
  rw [unsignedFile] at hU'
  generalize hout : (writeAllTracked id head none (before ++ .tracked num gen id (signatureDict o) :: after)).1 = out at hU'
  have hout' := hout
  rw [writeAllTracked_text, List.flatMap_append, List.flatMap_cons] at hout'
  have hcut : U = (head ++ before.flatMap OutObj.text) ++ (OutObj.tracked num gen id (signatureDict o)).text ++
      (after.flatMap OutObj.text ++ tail out) := by
    rw [← hU', ← hout']; simp
  rw [sigText] at hcut
  generalize hp : parts o num gen (head ++ before.flatMap OutObj.text) (after.flatMap OutObj.text ++ tail out) = p at hcut
  have hlen : U.length = p.A.length + 100 + p.B.length + 32768 + p.D.length := by
    rw [hcut]; simp only [List.length_append, List.length_replicate]; omega
  have hfit : (newRanges p).length ≤ 100 := range_fits _ _ _ (by omega) (by omega) (by omega)
  -- the dictionary of the signer
  have hdict : ∃ offs, (writeAllTracked id head none (before ++ .tracked num gen id (signatureDict o) :: after)).2 = some offs ∧
      locate (b! "ByteRange") offs = .ok (⟨.arr [], some (List.replicate 100 0x20)⟩, p.A.length) ∧
      locate (b! "Contents") offs = .ok (⟨.hex [], some (List.replicate 32768 0x20)⟩,
        p.A.length + (List.replicate 100 (0x20 : Byte)).length + p.B.length) := by
    have hb : writeName (b! "ByteRange") = b! "/ByteRange" := by decide
    have hc : writeName (b! "Contents") = b! "/Contents" := by decide
    rw [writeAllTracked_append, writeAllTracked_text, writeAllTracked_other id before (fun w hw => hother w (by simp [hw])),
      writeAllTracked, writeTracked]
    dsimp only
    rw [writeAllTracked_other id after (fun w hw => hother w (by simp [hw])), if_pos rfl]
    refine ⟨_, rfl, ?_, ?_⟩
    · rw [signatureDict_eq]
      generalize plainSlots (certEntries o) ++ _ = l2
      obtain ⟨A, h1, h2, -⟩ := locate_writeSlots (b! "ByteRange") ⟨.arr [], some (List.replicate 100 0x20)⟩ l2 [] true
        (head ++ before.flatMap OutObj.text ++ objHead num gen ++ b! "<<").length (by simp)
      rw [List.nil_append] at h1
      rw [h1, h2, hb, ← hp]
      simp [parts, slotsText]
      omega
    · rw [signatureDict_eq, ← List.cons_append]
      obtain ⟨A, h1, h2, -⟩ := locate_writeSlots (b! "Contents") ⟨.hex [], some (List.replicate 32768 0x20)⟩
        (plainSlots (laterEntries o))
        ((b! "ByteRange", ⟨.arr [], some (List.replicate 100 0x20)⟩) :: plainSlots (certEntries o)) true
        (head ++ before.flatMap OutObj.text ++ objHead num gen ++ b! "<<").length (by
          intro x hx
          simp only [List.mem_cons, plainSlots, List.mem_map, certEntries, Option.mem_toList, Option.map_eq_some_iff] at hx
          rcases hx with rfl | ⟨y, ⟨v, -, rfl⟩, rfl⟩ <;> simp)
      rw [h1, h2, hc, ← hp, List.map_cons, slotsText, hb, plainSlots_text]
      generalize List.replicate 100 (0x20 : Byte) = R
      generalize List.replicate 32768 (0x20 : Byte) = C
      simp [parts, Slot.text]
      omega
  obtain ⟨offs, hd1, hd2, hd3⟩ := hdict
  have := beforeFlush_spec key offs { IStream.ofBytes false U with putPos := U.length } p.A (List.replicate 100 0x20) p.B
    (List.replicate 32768 0x20) p.D [] [] _ hd2 hd3 hcut rfl rfl (newRanges p)
    (by simp only [List.length_replicate]; rfl) (by rw [List.length_replicate]; exact hfit)
  have hf := fileBeforeFlush_spec key offs { IStream.ofBytes true U with putPos := U.length, getPos := U.length } p.A
    (List.replicate 100 0x20) p.B (List.replicate 32768 0x20) p.D [] [] _ hd2 hd3 hcut rfl rfl (newRanges p)
    (by simp only [List.length_replicate]; rfl) (by rw [List.length_replicate]; exact hfit)
  rw [writeSigned, writeSignedToFile, hU, hd1]
  exact hf.trans this.symm

end VPdf
