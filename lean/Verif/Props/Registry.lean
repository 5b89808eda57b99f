import Verif.Lemmas.Registry
/-
  C97: files and their documents.
-/
namespace VPdf
open Spec

/-- **C97: one document for each file.**  After any calls, as long as the client has a handle of a document that was given to it for a
file: another request for the document of this file gives the same document, links of the file are looked up in it, and no other
document is open for the file. -/
theorem C97_one (cs : List DocCall) (a d : Nat) (hg : GivenFor a d (docCalls .start cs).2)
    (hh : 0 < handlesOf d 0 (docCalls .start cs).2) :
    (docCall (docCalls .start cs).1 (.openDocument a)).2 = .document d ∧ (docCall (docCalls .start cs).1 (.follow a)).2 = .document d ∧
      ∀ d', GivenFor a d' (docCalls .start cs).2 → 0 < handlesOf d' 0 (docCalls .start cs).2 → d' = d := by
  have hi := docCalls_inv cs start_inv
  have key : ∀ e, GivenFor a e (docCalls .start cs).2 → 0 < handlesOf e 0 (docCalls .start cs).2 →
      ∃ x, (docCalls .start cs).1.docs e = some x ∧ x.file = a := by
    intro e hg hh
    have ht := handles_track cs start_inv e
    rw [show handlesNow .start e = 0 from rfl] at ht
    rw [ht] at hh
    unfold handlesNow at hh
    cases hx : (docCalls .start cs).1.docs e with
    | none => rw [hx] at hh; exact absurd hh (Nat.lt_irrefl _)
    | some x => exact ⟨x, rfl, given_file cs start_inv hg x hx⟩
  obtain ⟨x, hx, hxa⟩ := key d hg hh
  obtain ⟨_, _, ht, f, hf, _⟩ := hi.doc _ _ hx
  rw [hxa] at ht hf
  refine ⟨?_, ?_, fun e he heh => ?_⟩
  · simp only [docCall, openDocumentAt, hf, ht, hx]
  · simp only [docCall, followLink, hf, ht, hx]
    rfl
  · obtain ⟨y, hy, hya⟩ := key e he heh
    have := (hi.doc _ _ hy).2.2.1
    rw [hya, ht] at this
    cases this
    rfl

/-- The hypotheses of `C97_one` are met: two requests, one release, another file. -/
example : GivenFor 7 0 (docCalls .start [.openPath 7 true, .openPath 8 true, .openDocument 7, .releaseDocument 0]).2 ∧
    0 < handlesOf 0 0 (docCalls .start [.openPath 7 true, .openPath 8 true, .openDocument 7, .releaseDocument 0]).2 := by
  refine ⟨⟨.openPath 7 true, rfl, ?_⟩, ?_⟩ <;> decide +kernel

/-- **C97 (partial): readable files can be opened.**  If no earlier request for a document at the address of the file failed and no
link there was followed without a document, then a readable file that was opened gives a document, and so do the requests that
open or create a file themselves.
Missing: other histories, for which the claim is false (below); the address is that of an object that may have been
destroyed long ago. -/
theorem C97_open_partial (cs : List DocCall) (a : Nat) (hu : Undisturbed a (docCalls .start cs).2) :
    (∀ f, (docCalls .start cs).1.files a = some f → f.readable = true →
      ∃ d, (docCall (docCalls .start cs).1 (.openDocument a)).2 = .document d) ∧
    ((docCalls .start cs).1.files a = none → (∃ d, (docCall (docCalls .start cs).1 (.openPath a true)).2 = .document d) ∧
      ∃ d, (docCall (docCalls .start cs).1 (.createPath a)).2 = .document d) := by
  have hi := docCalls_inv cs start_inv
  have hc := clean_stays cs start_inv (a := a) (fun h => h.1 rfl) hu
  revert hi hc
  generalize (docCalls .start cs).1 = w
  intro hi hc
  have hcase : w.table a = none ∨ ∃ d x, w.table a = some (some d) ∧ w.docs d = some x := by
    cases ht : w.table a with
    | none => exact .inl rfl
    | some t =>
      right
      cases t with
      | none => exact absurd ⟨by rw [ht]; simp, fun d hd => by rw [ht] at hd; cases hd⟩ hc
      | some d =>
        cases hx : w.docs d with
        | some x => exact ⟨d, x, rfl, hx⟩
        | none => exact absurd ⟨by rw [ht]; simp, fun d' hd' => by rw [ht] at hd'; cases hd'; exact hx⟩ hc
  refine ⟨fun f hf hr => ?_, fun hf => ?_⟩
  · rcases hcase with ht | ⟨d, x, ht, hx⟩
    · exact ⟨w.next, by simp only [docCall, openDocumentAt, hf, ht, newDocument, hr, if_pos]⟩
    · exact ⟨d, by simp only [docCall, openDocumentAt, hf, ht, hx]⟩
  · have ht : w.table a = none := by
      rcases hcase with ht | ⟨d, x, ht, hx⟩
      · exact ht
      · obtain ⟨_, _, _, g, h4, _⟩ := hi.doc _ _ hx
        rw [hi.own a d x ht hx, hf] at h4
        cases h4
    have hfile : (openFileAt w a true).files a = some ⟨1, 0, true⟩ := setAt_same _ _ _
    have ht' : (openFileAt w a true).table a = none := ht
    refine ⟨⟨w.next, ?_⟩, ⟨w.next, ?_⟩⟩
    · simp only [docCall, hf, Option.isSome_none, Bool.false_eq_true, if_false, thenRelease, openDocumentAt, hfile, ht', newDocument, if_pos]
      rfl
    · simp only [docCall, hf, Option.isSome_none, Bool.false_eq_true, if_false, thenRelease, createDocumentAt, hfile, ht', newDocument, if_pos]
      rfl

/-- The hypotheses of `C97_open_partial` are met by a history in which documents at the address come and go, and requests at another
one fail. -/
example : ∃ cs, Undisturbed 7 (docCalls .start cs).2 ∧ (docCalls .start cs).1.files 7 = none ∧ 4 ≤ cs.length := by
  refine ⟨[.openPath 7 true, .follow 7, .openPath 8 false, .releaseDocument 0], ⟨fun c hc => ?_, ?_⟩, by decide +kernel, by decide⟩
  · cases c <;> first | cases hc | skip
    all_goals
      intro h
      revert h
    · decide +kernel
    · rename_i r; cases r <;> decide +kernel
    · decide +kernel
  · decide +kernel

/-- **C97 is false after a failure.**  When a request for a document fails, as it does for a file that cannot be read, then no later
request with the same address ever gives a document, whatever the file is that is there then, how often it is closed and opened
again, and whether it is opened or created. -/
theorem C97_failure_counterexample (cs cs' : List DocCall) (c : DocCall) (a : Nat) (hc : asksFor c = some a)
    (ho : (docCall (docCalls .start cs).1 c).2 = .failed) :
    NeverAgain a (docCalls (docCall (docCalls .start cs).1 c).1 cs').2 := by
  have hi := docCalls_inv cs start_inv
  exact (dead_stays cs' (docCall_step c hi).inv (failed_dead hi hc ho)).2

/-- A damaged file is opened and a good one at the address of the first: the second request fails, too; without the first one it does
not. -/
example : (docCalls .start [.openPath 7 false, .openPath 7 true, .createPath 7, .openFile 7 true, .openDocument 7]).2.map (·.2) =
      [.failed, .failed, .failed, .done, .failed] ∧
    (docCalls .start [.openPath 7 true, .releaseDocument 0, .createPath 7]).2.map (·.2) = [.document 0, .done, .document 1] := by
  decide +kernel

/-- **C97 is false after links of files without a document.**  A link that names its destination, followed while the client has only
the file, is reported to have none; after that the file has no document any more, and neither has any later file at the
address. -/
theorem C97_link_counterexample (cs cs' : List DocCall) (a : Nat) (ho : (docCall (docCalls .start cs).1 (.follow a)).2 = .noDocument) :
    NeverAgain a (docCalls (docCall (docCalls .start cs).1 (.follow a)).1 cs').2 := by
  have hi := docCalls_inv cs start_inv
  refine (dead_stays cs' (docCall_step (.follow a) hi).inv ?_).2
  revert ho
  generalize (docCalls .start cs).1 = w
  intro ho
  simp only [docCall, followLink] at ho ⊢
  cases hf : w.files a with
  | none => rw [hf] at ho; cases ho
  | some f =>
    rw [hf] at ho
    dsimp only at ho ⊢
    cases ht : w.table a with
    | none =>
      refine ⟨by dsimp only; rw [setAt_same]; simp, fun d hd => ?_⟩
      dsimp only at hd
      rw [setAt_same] at hd
      cases hd
    | some t =>
      rw [ht] at ho
      cases t with
      | none => exact ⟨by rw [ht]; simp, fun d hd => by rw [ht] at hd; cases hd⟩
      | some d =>
        dsimp only at ho ⊢
        cases hx : w.docs d with
        | some x => rw [hx] at ho; cases ho
        | none => exact ⟨by rw [ht]; simp, fun d' hd' => by rw [ht] at hd'; cases hd'; exact hx⟩

/-- The file is opened, its document closed, and one of its links followed. -/
example : (docCalls .start [.openFile 7 true, .openDocument 7, .follow 7, .releaseDocument 0, .follow 7, .openDocument 7]).2.map (·.2) =
    [.done, .document 0, .document 0, .done, .noDocument, .failed] := by
  decide +kernel

/-- **C97: files are closed.**  After any calls, a file of which the client has no handle, and no document that was given for it, does
not exist any more: it can be opened and created again. -/
theorem C97_closed (cs : List DocCall) (a : Nat) (hf : fileHandlesOf a 0 (docCalls .start cs).2 = 0)
    (hd : ∀ d, GivenFor a d (docCalls .start cs).2 → handlesOf d 0 (docCalls .start cs).2 = 0) : (docCalls .start cs).1.files a = none := by
  have hi := docCalls_inv cs start_inv
  have hfile := docCalls_files cs start_inv (fun a f h => by cases h)
  cases hw : (docCalls .start cs).1.files a with
  | none => rfl
  | some f =>
    exfalso
    obtain ⟨h1, _, h3⟩ := hfile a f hw
    have hcount := count_track cs start_inv a
    rw [show fileHandles .start a = 0 from rfl, hf] at hcount
    have h0 : f.handles = 0 := by unfold fileHandles at hcount; rw [hw] at hcount; exact hcount.symm
    obtain ⟨d, x, hx, rfl⟩ := h3 (by omega)
    rcases doc_given cs start_inv hx with hg | ⟨y, hy⟩
    · have h4 := hd d hg
      have h5 := handles_track cs start_inv d
      rw [show handlesNow .start d = 0 from rfl, h4] at h5
      unfold handlesNow at h5
      rw [hx] at h5
      have := (hi.doc d x hx).1
      dsimp only at h5
      omega
    · cases hy

/-- A file that is opened, read as a document and released. -/
example : fileHandlesOf 7 0 (docCalls .start [.openFile 7 true, .openDocument 7, .openDocument 7, .releaseFile 7, .releaseDocument 0,
      .releaseDocument 0]).2 = 0 ∧
    handlesOf 0 0 (docCalls .start [.openFile 7 true, .openDocument 7, .openDocument 7, .releaseFile 7, .releaseDocument 0,
      .releaseDocument 0]).2 = 0 := by
  decide +kernel

end VPdf
