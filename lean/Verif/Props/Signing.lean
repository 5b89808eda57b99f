import Verif.Lemmas.Signing
/-
  C81: signing a document.

  `writeSigned` is the content of the saved file, `unsignedFile` what the writer has written when it hands over to the signer.
-/
namespace VPdf
open Spec

/-- The signature dictionaries that earlier signatures have left in the document have other identifiers, because each signature
dictionary has an object number of its own (with generation 0, see `allocate` in Model/Xref.lean). -/
def EarlierSignatures (own : Nat) (objs : List OutObj) : Prop :=
  ∀ n g id es, OutObj.tracked n g id es ∈ objs → ∃ m, m ≠ own ∧ id = trackingId m 0

theorem earlier_other {own : Nat} {objs : List OutObj} (h : EarlierSignatures own objs) :
    ∀ w ∈ objs, w.other (trackingId own 0) := by
  intro w hw
  cases w with
  | plain n g o => trivial
  | tracked n g id es =>
    obtain ⟨m, hm, rfl⟩ := h n g id es hw
    intro e
    exact hm (trackingId_inj e).symm

/-- **C81**: when signing succeeds, the saved file contains, at the place of the signature dictionary, an object that every reader
of the library reads as a dictionary which is a signature of this file: its byte ranges cover the whole file but the value of
`Contents`, and `Contents` is what the key makes of those bytes.  The dictionary has the entries that the user has set.  Everything
before and behind the dictionary is as the writer has written it. -/
theorem C81_signed_partial (key : Bytes → Res Bytes) (o : SignSettings) (own num gen : Nat) (before after : List OutObj) (head : Bytes)
    (tail : Bytes → Bytes) (file : Bytes) (hn : num ≤ 9223372036854775807) (hg : gen ≤ 65535)
    (hother : EarlierSignatures own (before ++ after)) (U : Bytes)
    (hU : U = unsignedFile (trackingId own 0) head (before ++ .tracked num gen (trackingId own 0) (signatureDict o) :: after) tail)
    (hsize : U.length ≤ 9223372036854775807)
    (h : writeSigned key (trackingId own 0) head (before ++ .tracked num gen (trackingId own 0) (signatureDict o) :: after) tail =
      .ok file) :
    ∃ (start behind : Nat) (d : Dict) (rest : Bytes),
      start = (writeAllTracked (trackingId own 0) head none before).1.length ∧
      behind = (writeAllTracked (trackingId own 0) head none
        (before ++ [.tracked num gen (trackingId own 0) (signatureDict o)])).1.length ∧
      file.length = U.length ∧ file.take start = U.take start ∧ file.drop behind = U.drop behind ∧
      (∀ e, parseIndirect e (file.drop start) = .ok (num, gen, .direct (.dict d), rest)) ∧
      Signed key file d ∧
      ∀ k, k ≠ b! "ByteRange" → k ≠ b! "Contents" →
        valueAt k d = valueAt k (signatureEntries o.certificate o.name o.location o.reason o.time) := by
  subst hU
  obtain ⟨post, p, hp, hcut, hfit, heq⟩ := writeSigned_spec key o num gen (trackingId own 0) before after head tail
    (earlier_other hother) hsize
  rw [hcut] at hsize ⊢
  have hlen : (p.A ++ (List.replicate 100 (0x20 : Byte) ++ (p.B ++ (List.replicate 32768 (0x20 : Byte) ++ p.D)))).length =
      p.A.length + 100 + p.B.length + 32768 + p.D.length := by
    simp only [List.length_append, List.length_replicate]; omega
  rw [hlen] at hsize
  rw [h] at heq
  generalize hmsg : p.A ++ (newRanges p ++ (List.replicate (100 - (newRanges p).length) 0x20 ++ p.B)) ++ p.D = msg at heq
  cases hkey : key msg with
  | error e => rw [hkey] at heq; cases heq
  | ok sig =>
    rw [hkey, ok_bind] at heq
    by_cases hl : 2 * sig.length + 2 > 32768
    · rw [if_pos hl] at heq; cases heq
    rw [if_neg hl] at heq
    injection heq with heq
    subst heq
    have hl' : sig.length ≤ 16383 := by omega
    subst hp
    generalize hpre : head ++ before.flatMap OutObj.text = pre at *
    obtain ⟨t, ht, hden⟩ := signedDict_denotes o num gen pre post sig hl' _ _ _ rfl rfl rfl (by omega)
    generalize hP : parts o num gen pre post = P at *
    have hsl : (signedFile P sig).length = P.A.length + 100 + P.B.length + 32768 + P.D.length := by
      rw [signedFile]
      simp only [List.length_append, List.length_replicate, paddedHex_length 32768 sig (by omega)]
      omega
    have hstart : (writeAllTracked (trackingId own 0) head none before).1 = pre := by rw [writeAllTracked_text, hpre]
    have hbeh : (writeAllTracked (trackingId own 0) head none
        (before ++ [.tracked num gen (trackingId own 0) (signatureDict o)])).1 =
        pre ++ (OutObj.tracked num gen (trackingId own 0) (signatureDict o)).text := by
      rw [writeAllTracked_text, List.flatMap_append, ← hpre]; simp
    have hA : ∃ x, P.A = pre ++ x := ⟨objHead num gen ++ b! "<<" ++ b! "/ByteRange ", by rw [← hP]; simp [parts]⟩
    obtain ⟨x, hx⟩ := hA
    have hD : ∃ y, P.D = y ++ post := ⟨slotsText false ((laterEntries o).map (fun x => (x.1, writeObj x.2))) ++ b! ">>" ++ b! "\nendobj\n",
      by rw [← hP]; simp [parts]⟩
    obtain ⟨y, hy⟩ := hD
    have htext := sigText o num gen (trackingId own 0) pre post
    rw [hP] at htext
    have hbl : (pre ++ (OutObj.tracked num gen (trackingId own 0) (signatureDict o)).text).length + post.length =
        P.A.length + 100 + P.B.length + 32768 + P.D.length := by
      rw [← List.length_append, htext, hlen]
    have hyl : P.D.length = y.length + post.length := by rw [hy, List.length_append]
    have hends : ∀ z : Bytes, z.length = P.A.length + 100 + P.B.length + 32768 + y.length →
        z.length = (pre ++ (OutObj.tracked num gen (trackingId own 0) (signatureDict o)).text).length := by
      intro z hz; omega
    refine ⟨_, _, signedDict o (P.A.length + 100 + P.B.length) (P.A.length + 100 + P.B.length + 32768) P.D.length
      (sig ++ List.replicate (16383 - sig.length) 0), b! "\n" ++ post, rfl, rfl, by rw [hsl, hlen], ?_, ?_, ?_, ?_, ?_⟩
    · rw [hstart, signedFile, hx, List.append_assoc, List.append_assoc, List.take_left, List.take_left]
    · rw [hbeh]
      have e1 : signedFile P sig = (P.A ++ (newRanges P ++ (List.replicate (100 - (newRanges P).length) 0x20 ++
          (P.B ++ (paddedHex 32768 sig ++ y))))) ++ post := by
        rw [signedFile, hy]; simp only [List.append_assoc]
      have e2 : P.A ++ (List.replicate 100 (0x20 : Byte) ++ (P.B ++ (List.replicate 32768 (0x20 : Byte) ++ P.D))) =
          (P.A ++ (List.replicate 100 (0x20 : Byte) ++ (P.B ++ (List.replicate 32768 (0x20 : Byte) ++ y)))) ++ post := by
        rw [hy]; simp only [List.append_assoc]
      rw [e1, e2, List.drop_left' (hends _ (by
          simp only [List.length_append, List.length_replicate, paddedHex_length 32768 sig (by omega)]; omega)),
        List.drop_left' (hends _ (by simp only [List.length_append, List.length_replicate]; omega))]
    · intro e
      rw [hstart, ht, List.drop_left]
      exact parseIndirect_dict e num gen _ t post hn hg hden
    · have hf1 : signedFile P sig = (P.A ++ (newRanges P ++ (List.replicate (100 - (newRanges P).length) 0x20 ++ P.B))) ++
          (paddedHex 32768 sig ++ P.D) := by
        rw [signedFile]; simp only [List.append_assoc]
      have hl1 : (P.A ++ (newRanges P ++ (List.replicate (100 - (newRanges P).length) 0x20 ++ P.B))).length =
          P.A.length + 100 + P.B.length := by
        simp only [List.length_append, List.length_replicate]; omega
      have hdrop : (signedFile P sig).drop (P.A.length + 100 + P.B.length) = paddedHex 32768 sig ++ P.D := by
        rw [hf1, List.drop_left' hl1]
      have hdrop2 : (signedFile P sig).drop (P.A.length + 100 + P.B.length + 32768) = P.D := by
        rw [← List.drop_drop, hdrop, List.drop_left' (paddedHex_length 32768 sig (by omega))]
      refine ⟨P.A.length + 100 + P.B.length, P.A.length + 100 + P.B.length + 32768, P.D.length, 16383 - sig.length, sig, ?_,
        by omega, by rw [hsl], ?_, ?_, ?_⟩
      · rw [signedDict, valueAt, if_pos rfl]
      · rw [hdrop2, List.take_length, hf1, List.take_left' hl1, hmsg]; exact hkey
      · rw [signedDict, valueAt, if_neg (by decide), valueAt_append, certEntries, valueAt_option, if_neg (by decide)]
        rw [valueAt, if_pos rfl]; rfl
      · have hpl : (P.A.length + 100 + P.B.length + 32768) - (P.A.length + 100 + P.B.length) = 32768 := by omega
        rw [hdrop, hpl, List.take_left' (paddedHex_length 32768 sig (by omega))]
        exact paddedHex_denotes 16384 sig (by omega)
    · intro k h1 h2
      exact signedDict_others o _ _ _ _ k h1 h2

/-- **C81**, when signing fails: there is one sequence of bytes that the key is asked to sign; if the key fails, so does signing; a
signature of up to 16383 bytes is stored; a longer one does not fit and is an exception. -/
theorem C81_outcome (key : Bytes → Res Bytes) (o : SignSettings) (own num gen : Nat) (before after : List OutObj) (head : Bytes)
    (tail : Bytes → Bytes) (hother : EarlierSignatures own (before ++ after)) (objs : List OutObj)
    (ho : objs = before ++ .tracked num gen (trackingId own 0) (signatureDict o) :: after)
    (hsize : (unsignedFile (trackingId own 0) head objs tail).length ≤ 9223372036854775807) :
    ∃ message,
      (∀ e, key message = .error e → writeSigned key (trackingId own 0) head objs tail = .error e) ∧
      (∀ sig, key message = .ok sig → sig.length ≤ 16383 → ∃ file, writeSigned key (trackingId own 0) head objs tail = .ok file) ∧
      (∀ sig, key message = .ok sig → sig.length > 16383 → writeSigned key (trackingId own 0) head objs tail = .error .throw) := by
  subst ho
  obtain ⟨post, p, hp, hcut, hfit, heq⟩ := writeSigned_spec key o num gen (trackingId own 0) before after head tail
    (earlier_other hother) hsize
  refine ⟨p.A ++ (newRanges p ++ (List.replicate (100 - (newRanges p).length) 0x20 ++ p.B)) ++ p.D, ?_, ?_, ?_⟩
  · intro e he
    rw [heq, he]; rfl
  · intro sig hs hl
    rw [heq, hs, ok_bind, if_neg (by omega)]
    exact ⟨_, rfl⟩
  · intro sig hs hl
    rw [heq, hs, ok_bind, if_pos (by omega)]

/-- No settings. -/
def noSettings : SignSettings := ⟨none, none, none, none, none⟩

theorem sample_earlier : EarlierSignatures 6 ([.tracked 5 0 (trackingId 5 0) (signatureDict noSettings)] ++ []) := by
  intro n g id es h
  rw [List.append_nil, List.mem_singleton] at h
  injection h with h1 h2 h3 h4
  exact ⟨5, by decide, h3⟩

theorem sample_text_length (n : Nat) (id : Bytes) (h : (objHead n 0).length = 8) :
    (OutObj.tracked n 0 id (signatureDict noSettings)).text.length ≤ 40000 := by
  have := congrArg List.length (sigText noSettings n 0 id [] [])
  rw [List.nil_append, List.append_nil] at this
  rw [this]
  have hA : (parts noSettings n 0 [] []).A.length = 8 + 13 := by
    show (([] : Bytes) ++ objHead n 0 ++ b! "<<" ++ b! "/ByteRange ").length = _
    simp [h]
  have hB : (parts noSettings n 0 [] []).B.length = 11 := by rfl
  have hD : (parts noSettings n 0 [] []).D.length ≤ 200 := by
    show (slotsText false _ ++ b! ">>" ++ b! "\nendobj\n" ++ []).length ≤ 200
    decide
  simp only [List.length_append, List.length_replicate, hA, hB]
  omega

theorem two_length (id head : Bytes) (w w' : OutObj) :
    (unsignedFile id head ([w] ++ w' :: []) (fun _ => [])).length = head.length + w.text.length + w'.text.length := by
  rw [unsignedFile, writeAllTracked_text, List.flatMap_append, List.flatMap_cons, List.flatMap_cons, List.flatMap_nil]
  simp only [List.length_append, List.length_nil]
  omega

theorem sample_size : (unsignedFile (trackingId 6 0) (b! "%PDF-1.7\n")
    ([.tracked 5 0 (trackingId 5 0) (signatureDict noSettings)] ++
      .tracked 6 0 (trackingId 6 0) (signatureDict noSettings) :: []) (fun _ => [])).length ≤ 9223372036854775807 := by
  have h1 := sample_text_length 5 (trackingId 5 0) (by decide)
  have h2 := sample_text_length 6 (trackingId 6 0) (by decide)
  rw [two_length]
  generalize (OutObj.tracked 5 0 (trackingId 5 0) (signatureDict noSettings)).text = x at *
  generalize (OutObj.tracked 6 0 (trackingId 6 0) (signatureDict noSettings)).text = y at *
  have : (b! "%PDF-1.7\n").length = 9 := by decide
  omega

/-- **C81**, its assumptions hold for a document with an earlier signature, and signing succeeds. -/
example : ∃ file, writeSigned (fun m => .ok (m.take 20)) (trackingId 6 0) (b! "%PDF-1.7\n")
    ([.tracked 5 0 (trackingId 5 0) (signatureDict noSettings)] ++
      .tracked 6 0 (trackingId 6 0) (signatureDict noSettings) :: []) (fun _ => []) = .ok file := by
  obtain ⟨m, -, h, -⟩ := C81_outcome (fun m => .ok (m.take 20)) noSettings 6 6 0
    [.tracked 5 0 (trackingId 5 0) (signatureDict noSettings)] [] (b! "%PDF-1.7\n") (fun _ => []) sample_earlier _ rfl sample_size
  exact h _ rfl (by simp)

/-- The text of a signature dictionary without settings, with given texts for the two values. -/
def dictText (R C : Bytes) : Bytes := b! "<<" ++ (b! "/ByteRange " ++ (R ++ (b! " /Contents " ++ (C ++
  (slotsText false ((laterEntries noSettings).map (fun x => (x.1, writeObj x.2))) ++ b! ">>")))))

/-- The text of a signature dictionary without settings that has not been filled in. -/
def blankText : Bytes := dictText (List.replicate 100 0x20) (List.replicate 32768 0x20)

theorem blank_parts (R C rest : Bytes) :
    (parts noSettings 5 0 [] rest).A ++ (R ++ ((parts noSettings 5 0 [] rest).B ++ (C ++ (parts noSettings 5 0 [] rest).D))) =
      objHead 5 0 ++ (dictText R C ++ (b! "\nendobj" ++ (b! "\n" ++ rest))) := by
  simp [parts, certEntries, noSettings, slotsText, dictText]

theorem blank_text (rest : Bytes) : (OutObj.tracked 5 0 (trackingId 5 0) (signatureDict noSettings)).text ++ rest =
    objHead 5 0 ++ (blankText ++ (b! "\nendobj" ++ (b! "\n" ++ rest))) := by
  have h := sigText noSettings 5 0 (trackingId 5 0) [] rest
  rw [List.nil_append, blank_parts] at h
  rw [h, blankText]

theorem dictText_denotes (R C : Bytes) (hR : Sep R) (hC : Sep C) :
    ∃ d, valueAt (b! "Contents") d = none ∧ Denotes (.dict d) (dictText R C) := by
  have hl := (pieces_entries ((laterEntries noSettings).map (fun x => ⟨x.1, x.2, writeObj x.2, []⟩)) (by
    intro p hp
    obtain ⟨x, hx, rfl⟩ := List.mem_map.mp hp
    exact ⟨writeObj_denotes (settings_savable noSettings x (by simp [hx])).1, .nil⟩)).2
    (0x20 :: C) (.ws 32 _ (by decide) hC)
  have he := Entries.cons (b! "ByteRange") (.name (b! "Contents")) _ [] (b! "ByteRange") (0x20 :: (R ++ [0x20]))
    (b! "/Contents") _ .nil (encodeName_body (b! "ByteRange"))
    (.ws 32 _ (by decide) (sep_append hR sep_space)) (ends_space _)
    (.name _ _ (encodeName_body (b! "Contents"))) hl (Or.inr (ends_space _))
  refine ⟨(b! "ByteRange", .name (b! "Contents")) :: laterEntries noSettings, by decide, ?_⟩
  have := Denotes.dict _ ((b! "ByteRange", .name (b! "Contents")) :: laterEntries noSettings) _ he (by unfold SortedKeys; decide) (by
    intro k; rfl)
  refine cast ?_ this
  congr 1
  rw [dictText]
  simp [Function.comp_def]

/-- **C81** is false for an earlier signature: a document that has been signed and is signed again while it is in memory is saved with
blanks for the byte ranges and the contents of the first signature; its dictionary is read without contents, so that it is a
signature of nothing, whatever the key. -/
theorem C81_again_counterexample : ∃ (first second : SignSettings) (head : Bytes) (key : Bytes → Res Bytes) (file : Bytes) (d : Dict) (rest : Bytes),
    writeSigned key (trackingId 6 0) head [.tracked 5 0 (trackingId 5 0) (signatureDict first),
      .tracked 6 0 (trackingId 6 0) (signatureDict second)] (fun _ => []) = .ok file ∧
    (∀ e, parseIndirect e (file.drop head.length) = .ok (5, 0, .direct (.dict d), rest)) ∧
    valueAt (b! "Contents") d = none ∧ ∀ key' file', ¬ Signed key' file' d := by
  obtain ⟨file, hfile⟩ : ∃ file, writeSigned (fun _ => .ok [1, 2]) (trackingId 6 0) (b! "%PDF-1.7\n")
      [.tracked 5 0 (trackingId 5 0) (signatureDict noSettings), .tracked 6 0 (trackingId 6 0) (signatureDict noSettings)]
      (fun _ => []) = .ok file := by
    obtain ⟨m, -, h, -⟩ := C81_outcome (fun _ => .ok [1, 2]) noSettings 6 6 0
      [.tracked 5 0 (trackingId 5 0) (signatureDict noSettings)] [] (b! "%PDF-1.7\n") (fun _ => []) sample_earlier _ rfl sample_size
    exact h [1, 2] rfl (by decide)
  obtain ⟨start, behind, -, -, hs, -, -, ht, -, -, -, -⟩ := C81_signed_partial (fun _ => .ok [1, 2]) noSettings 6 6 0
    [.tracked 5 0 (trackingId 5 0) (signatureDict noSettings)] [] (b! "%PDF-1.7\n") (fun _ => []) file (by decide) (by decide)
    sample_earlier _ rfl sample_size hfile
  have hstart : (writeAllTracked (trackingId 6 0) (b! "%PDF-1.7\n") none
      [.tracked 5 0 (trackingId 5 0) (signatureDict noSettings)]).1 =
      b! "%PDF-1.7\n" ++ (OutObj.tracked 5 0 (trackingId 5 0) (signatureDict noSettings)).text := by
    rw [writeAllTracked_text, List.flatMap_cons, List.flatMap_nil, List.append_nil]
  rw [hstart] at hs
  have hU : (unsignedFile (trackingId 6 0) (b! "%PDF-1.7\n") ([.tracked 5 0 (trackingId 5 0) (signatureDict noSettings)] ++
      [.tracked 6 0 (trackingId 6 0) (signatureDict noSettings)]) (fun _ => [])).take start =
      b! "%PDF-1.7\n" ++ (OutObj.tracked 5 0 (trackingId 5 0) (signatureDict noSettings)).text := by
    rw [unsignedFile, writeAllTracked_text, List.flatMap_append, List.flatMap_cons, List.flatMap_nil, List.append_nil,
      List.append_nil, ← List.append_assoc, List.take_left' hs.symm]
  rw [hU] at ht
  have hf : file = b! "%PDF-1.7\n" ++ ((OutObj.tracked 5 0 (trackingId 5 0) (signatureDict noSettings)).text ++ file.drop start) := by
    rw [← List.append_assoc, ← ht, List.take_append_drop]
  obtain ⟨d, hd, hden⟩ := dictText_denotes _ _ (sep_blanks 100) (sep_blanks 32768)
  refine ⟨noSettings, noSettings, b! "%PDF-1.7\n", fun _ => .ok [1, 2], file, d, b! "\n" ++ file.drop start, hfile, ?_, hd, ?_⟩
  · intro e
    rw [hf, List.drop_left, ← hf, blank_text]
    exact parseIndirect_dict e 5 0 d _ _ (by decide) (by decide) hden
  · rintro key' file' ⟨_, _, _, _, _, _, _, _, _, h, _⟩
    rw [hd] at h; cases h

end VPdf
