import Verif.Lemmas.RecoveryTerm
/-
  C84: what is found in a file whose cross-references cannot be read.
-/
namespace VPdf
open Spec

/-- **C84**, partial: in a file that is a sequence of objects, trailers, lines of other text, white-space and comments, the
search finds the last object with each number: it has the value its text denotes (the data of streams included), the
offset of its entry leads to it, numbers that do not occur lead to null, and the trailer is the last one.  Missing: other
files, for which the theorems below show that objects are lost, that the whole search fails, or that it never ends. -/
theorem C84_recover_partial (c : Codec) (file : Bytes) (ps : List FilePart) (h : FileText ps file) :
    ∃ r, findAllObjects c file = .ok r ∧ r.trailer = (lastTrailer ps).getD [] ∧
      (∀ n g v, lastObject n ps = some (g, v) →
        (∃ x, findFound n g r.entries = some x ∧ FoundAt file x.off n g v) ∧
        (LengthFound ps v → ∀ f, foundObject file r (f + 2) n g = .ok v)) ∧
      (∀ n g, (∀ v, lastObject n ps ≠ some (g, v)) → ∀ f, foundObject file r (f + 1) n g = .ok (.direct .null)) := by
  obtain ⟨xs, l, h1, h2⟩ := findLoop_text c (openEnv file) rfl h [] [] (file.length + 1) {} .nil rfl (by simp)
  have hm := fun n => find_matches n ps xs [] h2
  refine ⟨_, h1, rfl, ?_, ?_⟩
  · intro n g v hn
    have key : ∀ n g v, lastObject n ps = some (g, v) →
        ∃ x, findFound n g (xs.foldl (fun es x => addFound x es) []) = some x ∧ HeldAs file x.obj v ∧ FoundAt file x.off n g v := by
      intro n g v hn
      have := hm n
      rw [hn] at this
      obtain ⟨x, x1, x2, x3, x4⟩ := this
      refine ⟨x, ?_, x3, x4⟩
      rw [findFound, x1]
      simp [x2]
    obtain ⟨x, x1, x2, x3⟩ := key n g v hn
    refine ⟨⟨x, x1, x3⟩, ?_⟩
    intro hl f
    rw [foundObject]
    dsimp only
    have hs : ∀ n g, findRead ([] : List ReadSection) n g = none := fun _ _ => rfl
    rw [hs, x1]
    dsimp only
    cases hx : x.obj with
    | direct o => rw [hx] at x2; have : v = .direct o := x2; rw [this]
    | stream d off =>
      rw [hx] at x2
      obtain ⟨body, rfl, b1, b2⟩ := x2
      dsimp only
      rw [rawBody]
      rcases b2 with b2 | ⟨n', g', b2⟩
      · rw [valueAt_eq] at b2
        rw [b2]
        dsimp only
        rw [asInt, ok_bind, if_neg (by omega)]
        have b1 : (file.drop off).take body.length = body := b1
        simp [fileEnv, b1]
        rfl
      · have hl' := hl n' g' b2
        rw [valueAt_eq] at b2
        rw [b2]
        dsimp only
        obtain ⟨y, y1, y2, -⟩ := key n' g' _ hl'
        have hy : y.obj = .direct (.int body.length) := by
          cases hy : y.obj with
          | direct o => rw [hy] at y2; have : SObj.direct (.int body.length) = .direct o := y2; injection this with this; rw [this]
          | stream d off => rw [hy] at y2; obtain ⟨_, y3, -⟩ := y2; cases y3
        rw [asInt]
        simp only [fileEnv]
        rw [foundObject]
        dsimp only
        rw [hs, y1]
        dsimp only
        rw [hy]
        dsimp only
        rw [ok_bind]
        dsimp only
        rw [pure_bind, if_neg (by omega)]
        have b1 : (file.drop off).take body.length = body := b1
        simp [b1]
        rfl
  · intro n g hn f
    have := hm n
    have hnone : findFound n g (xs.foldl (fun es x => addFound x es) []) = none := by
      rw [findFound]
      cases hl : lastObject n ps with
      | none => rw [hl] at this; rw [this]; rfl
      | some gv =>
        obtain ⟨g', v⟩ := gv
        rw [hl] at this
        obtain ⟨x, x1, x2, -, -⟩ := this
        rw [x1]
        have : g' ≠ g := by
          rintro rfl; exact hn v hl
        simp [x2, this]
    have hs : ∀ n g, findRead ([] : List ReadSection) n g = none := fun _ _ => rfl
    rw [foundObject]
    dsimp only
    rw [hs, hnone]

/-- **C84**, partial: when the cross-references of such a file cannot be read, it is opened with the objects that were found. -/
theorem C84_open_partial (c : Codec) (file : Bytes) (ps : List FilePart) (h : FileText ps file) (v : PdfVersion) (k : Bytes)
    (hv : readHeader file = .ok (v, k)) (f : Fault) (hx : openFile c file = .error f) (hf : f = .throw ∨ f = .missing) :
    ∃ r, findAllObjects c file = .ok r ∧ openAny c file = .ok (v, .found r) := by
  obtain ⟨r, hr, -⟩ := C84_recover_partial c file ps h
  refine ⟨r, hr, ?_⟩
  rw [openAny, hv, ok_bind]
  dsimp only
  rw [openFile, hv, ok_bind] at hx
  dsimp only at hx
  have hchain : (do
      let off ← lastXrefOffset file
      readChain (openEnv file) (readSection (openEnv file) (readStreamSection c (openEnv file))) (file.length + 1) off :
        Res (List ReadSection)) = .error f := by
    cases h1 : lastXrefOffset file with
    | error f' => rw [h1] at hx; cases hx; rfl
    | ok off =>
      rw [h1, ok_bind] at hx
      rw [ok_bind]
      cases h2 : readChain (openEnv file) (readSection (openEnv file) (readStreamSection c (openEnv file))) (file.length + 1) off with
      | error f' => rw [h2] at hx; cases hx; rfl
      | ok xs => rw [h2] at hx; cases hx
  rw [hchain]
  have hs : searches f = true := by rcases hf with rfl | rfl <;> rfl
  dsimp only
  rw [if_pos hs, hr]
  rfl

/-- **C84**, partial: in a file in which no `/Length` is followed by a minus sign the search ends, after at most one round for each byte. -/
theorem C84_ends_partial (c : Codec) (hc : ∀ d s, c.decode d s ≠ .error .timeout) (file : Bytes) (hm : NoNegativeLength file) :
    findAllObjects c file ≠ .error .timeout :=
  findLoop_ends (e := openEnv file) hc ⟨hm, fun _ _ _ h => (nomatch h), fun _ _ h => (nomatch h)⟩ _ file {} (List.suffix_refl _)
    (by omega)


/-- A file whose number behind `startxref` leads nowhere. -/
def damagedFile : Bytes :=
  b! "%PDF-1.4\n3 0 obj\n5\nendobj\n2 0 obj\n<</Length 3 0 R>>\nstream\na\rb\nc\nendstream\nendobj\nxref\n0 1\n0000000000 65535 f \ntrailer\n<</Root 2 0 R>>\nstartxref\n999\n%%EOF"

/-- What it holds. -/
def damagedParts : List FilePart :=
  [.object 3 0 (.direct (.int 5)), .object 2 0 (.stream [(b! "Length", .ref 3 0)] (b! "a\rb\nc")), .trailer [(b! "Root", .ref 2 0)]]

theorem damaged_text : FileText damagedParts damagedFile := by
  have t3 : IntText (3 : Nat) (b! "3") := natDec_text 3
  have t2 : IntText (2 : Nat) (b! "2") := natDec_text 2
  have t0 : IntText (0 : Nat) (b! "0") := natDec_text 0
  have blank : Blanks [32] := by unfold Blanks; decide
  have o1 : IndirectText 3 0 (.direct (.int 5)) (b! "3 0 obj\n5\nendobj") :=
    .mk 3 0 _ (b! "3") [32] (b! "0") [32] (b! "\n5\n") t3 (by decide) blank (by simp) t0 (by decide) blank (by simp)
      (.direct (.int 5) [10] (b! "5") [10] sep_lf (writeObj_denotes (.int 5 (by decide) (by decide))) sep_lf (by decide) (Or.inr (by decide)))
  have o2 : IndirectText 2 0 (.stream [(b! "Length", .ref 3 0)] (b! "a\rb\nc"))
      (b! "2 0 obj\n<</Length 3 0 R>>\nstream\na\rb\nc\nendstream\nendobj") :=
    .mk 2 0 _ (b! "2") [32] (b! "0") [32] (b! "\n<</Length 3 0 R>>\nstream\na\rb\nc\nendstream\n") t2 (by decide) blank (by simp) t0
      (by decide) blank (by simp)
      (.streamRef [(b! "Length", .ref 3 0)] (b! "a\rb\nc") [10] (b! "<</Length 3 0 R>>") [10] [10] [10] [10] 3 0 sep_lf
        (writeObj_denotes (.dict [(b! "Length", .ref 3 0)] (by unfold SortedKeys; decide)
          (by intro x hx; simp at hx; subst hx; exact .ref 3 0 (by decide) (by decide)) (by intro x hx; simp at hx; subst hx; simp)))
        sep_lf (by decide) (by decide) sep_lf ⟨10, by simp, Or.inl rfl⟩ (Or.inl rfl) rfl (by decide))
  have l1 : OtherLine (b! "xref") := .word (b! "xref") [] ⟨by decide, by decide, by unfold IsDigit; decide⟩ (by decide) (by decide) (by decide)
  have l2 : OtherLine (b! "0 1") := .numbers 0 1 (b! "0") [32] (b! "1") [] (natDec_text 0) blank (by simp) (natDec_text 1) (by simp [Blanks])
  have l3 : OtherLine (b! "0000000000 65535 f ") :=
    .numbersWord 0 65535 (b! "0000000000") [32] (b! "65535") [32] (b! "f") [32] ⟨b! "0000000000", by decide, by unfold IsDigit; decide, Or.inl ⟨rfl, rfl⟩⟩ blank
      (by simp) (natDec_text 65535) blank (by simp) ⟨by decide, by decide, by unfold IsDigit; decide⟩ (by decide) (by decide)
  have e6 : FileText [] (b! "\n%%EOF") := .sep [10] _ _ sep_lf (.comment (b! "%EOF") (by decide))
  have e5 : FileText [] (b! "\nstartxref\n999\n%%EOF") :=
    .sep [10] _ _ sep_lf (.startxref 999 [10] (b! "999") _ _ sep_lf (by simp) (natDec_text 999) (by decide) (by decide) (by decide) e6)
  have e4 : FileText [.trailer [(b! "Root", .ref 2 0)]] (b! "trailer\n<</Root 2 0 R>>\nstartxref\n999\n%%EOF") :=
    .trailer _ [10] (b! "<</Root 2 0 R>>") _ _ sep_lf
      (writeObj_denotes (.dict [(b! "Root", .ref 2 0)] (by unfold SortedKeys; decide)
          (by intro x hx; simp at hx; subst hx; exact .ref 2 0 (by decide) (by decide)) (by intro x hx; simp at hx; subst hx; simp))) e5
  have e3 := FileText.line _ [10] _ _ l1 (by decide) (by decide) (by decide)
    (.line _ [10] _ _ l2 (by decide) (by decide) (by decide) (.line _ [10] _ _ l3 (by decide) (by decide) (by decide) e4))
  have e2 := FileText.object _ _ _ _ _ _ o2 (by decide) (.sep [10] _ _ sep_lf e3)
  have e1 := FileText.object _ _ _ _ _ _ o1 (by decide) (.sep [10] _ _ sep_lf e2)
  exact .sep (b! "%PDF-1.4\n") _ _ (.comment (b! "PDF-1.4") 10 [] (by decide) (by decide) .nil) e1

set_option maxRecDepth 20000 in
/-- The hypotheses of the theorems hold of it: its cross-references cannot be read, the stream is found with its data. -/
example : openFile ⟨fun _ b => .ok b, fun _ b => .ok b⟩ damagedFile = .error .throw ∧ lastObject 2 damagedParts = some (0, .stream [(b! "Length", .ref 3 0)] (b! "a\rb\nc")) ∧
    LengthFound damagedParts (.stream [(b! "Length", .ref 3 0)] (b! "a\rb\nc")) ∧ NoNegativeLength damagedFile :=
  ⟨by rfl, rfl, by intro n g h; cases h; rfl, noNegative_of_drop (by decide +kernel)⟩

/-! ### what is lost -/

/-- **C84** fails for a file that was cut off within an object: the complete object in front is not found either. -/
theorem C84_truncated_counterexample (c : Codec) :
    openAny c (b! "%PDF-1.4\n1 0 obj 5 endobj\n2 0 obj <</A") = .error .throw := by rfl

/-- **C84** fails for a file behind text that is not PDF: a line such as `<!doctype html>` stops the search. -/
theorem C84_garbage_counterexample (c : Codec) :
    openAny c (b! "<!doctype html>\n%PDF-1.4\n1 0 obj 5 endobj\ntrailer<</Root 1 0 R>>\n") = .error .throw := by rfl

/-- **C84** fails for an object whose number and generation are on two lines, which the standard allows: it is not found. -/
theorem C84_split_counterexample (c : Codec) :
    ∃ r, findAllObjects c (b! "%PDF-1.4\n1\n0 obj 5 endobj\ntrailer<</Root 1 0 R>>\n") = .ok r ∧ r.entries = [] := ⟨_, rfl, rfl⟩

/-- **C84** fails for an object behind one without `endobj`: it is not found. -/
theorem C84_unended_counterexample (c : Codec) :
    ∃ r, findAllObjects c (b! "%PDF-1.4\n1 0 obj 5\n2 0 obj 6 endobj\ntrailer<</Root 1 0 R>>\n") = .ok r ∧
      r.entries.map (fun x => x.num) = [1] := ⟨_, rfl, rfl⟩

/-- **C84** fails for linearized files, whose last trailer need not name the catalog: the trailer of the first page, which
does, is given up. -/
theorem C84_trailer_counterexample (c : Codec) :
    ∃ r, findAllObjects c (b! "%PDF-1.4\n1 0 obj<</Type/Catalog>>endobj\ntrailer<</Root 1 0 R>>\n2 0 obj 6 endobj\ntrailer<</Size 3>>\n") = .ok r ∧
      mapFind (b! "Root") r.trailer = none := ⟨_, rfl, rfl⟩

/-- A file with a cross-reference stream, that was moved by bytes put in front of it. -/
def movedFile : Bytes :=
  b! "moved\n%PDF-1.5\n1 0 obj 5 endobj\n2 0 obj<</Type/XRef/W[1 1 1]/Index[1 1]/Size 3/Length 3>>stream\n\x01\x09\x00\nendstream endobj\nstartxref\n26\n%%EOF"

set_option maxRecDepth 20000 in
/-- **C84** fails for files with cross-reference streams: the offsets of the damaged section still come before those found by
the search.  The object is found, and cannot be read. -/
theorem C84_stale_counterexample :
    ∃ v r x, openAny ⟨fun _ b => .ok b, fun _ b => .ok b⟩ movedFile = .ok (v, .found r) ∧ findFound 1 0 r.entries = some x ∧
      (match x.obj with | .direct o => o = .int 5 | _ => False) ∧
      foundObject movedFile r 10 1 0 = .error .throw := ⟨_, _, _, rfl, rfl, rfl, rfl⟩

/-- A file whose stream has a negative length. -/
def hangingFile : Bytes := b! "%PDF-1.4\nendstream endobj\n1 0 obj<</Length -46>>stream\n"

/-- **C84** fails: the search in this file of 55 bytes never ends, whatever the number of rounds.  The negative length sends the
reader back in front of the object, which is found again. -/
theorem C84_hang_counterexample (c : Codec) (f : Nat) : findLoop c (openEnv hangingFile) f hangingFile {} = .error .timeout := by
  have loop : ∀ f st, findLoop c (openEnv hangingFile) f (b! "1 0 obj<</Length -46>>stream\n") st = .error .timeout := by
    intro f
    induction f using Nat.strongRecOn with
    | _ f ih =>
      intro st
      match f with
      | 0 => rfl
      | 1 => rfl
      | f + 2 =>
        have h1 : ∃ st', findRound c (openEnv hangingFile) (b! "1 0 obj<</Length -46>>stream\n") st =
          .ok (some (st', b! "\n1 0 obj<</Length -46>>stream\n")) := ⟨_, rfl⟩
        obtain ⟨st', h1⟩ := h1
        have h2 : findRound c (openEnv hangingFile) (b! "\n1 0 obj<</Length -46>>stream\n") st' =
          .ok (some (st', b! "1 0 obj<</Length -46>>stream\n")) := rfl
        rw [findLoop_step _ h1, findLoop_step _ h2]
        exact ih f (by omega) st'
  cases f with
  | zero => rfl
  | succ f =>
    have h1 : findRound c (openEnv hangingFile) hangingFile {} = .ok (some ({}, b! "1 0 obj<</Length -46>>stream\n")) := rfl
    rw [findLoop_step _ h1]
    exact loop f _

/-- The search is reached: opening the file does not end. -/
theorem hanging_opened (c : Codec) : openAny c hangingFile = .error .timeout := by
  have h1 : readHeader hangingFile = .ok (.v14, b! "endstream endobj\n1 0 obj<</Length -46>>stream\n") := rfl
  have h2 : lastXrefOffset hangingFile = .error .throw := rfl
  rw [openAny, h1, ok_bind]
  dsimp only
  rw [h2]
  show (findAllObjects c hangingFile >>= _) = _
  rw [findAllObjects, C84_hang_counterexample]
  rfl

end VPdf
