import Verif.Spec.LostLength
import Verif.Lemmas.LostLength
/-!
# C129: streams with a missing or wrong length are read whole
-/
namespace VPdf
open Spec

/-- The proof of both cases, from what the search leaves to the correction of the length. -/
theorem lost_parsed (e : Env) (d d' : Dict) (pre body head tail behind : Bytes) (h : LostStream d body head tail behind)
    (hw : e.whole = pre ++ (head ++ (body ++ tail)))
    (hl : mapFind (b! "Length") d = none ∨ ∃ k tok r, mapFind (b! "Length") d = some (.int k) ∧
      readTokenSkip parserKeywords (e.seek ((pre ++ head).length + k)) = .ok (tok, r) ∧
      tok.type ≠ .keyword (b! "endstream"))
    (hc : correctLength e d body.length = .ok d') :
    parse e (head ++ (body ++ tail)) = .ok (.stream d' (pre ++ head).length, behind) := by
  obtain ⟨⟨t, s1, e1, e2, rfl, rfl, p1, p2, p3, p4, p5⟩, ⟨sep, rest, rfl, q1, q2, q3⟩, hb⟩ := h
  have assoc : t ++ s1 ++ b! "stream" ++ e1 ++ (body ++ (e2 ++ b! "endstream" ++ (sep ++ b! "endobj" ++ rest))) =
      t ++ (s1 ++ (b! "stream" ++ (e1 ++ (body ++ (e2 ++ (b! "endstream" ++ (sep ++ (b! "endobj" ++ rest)))))))) := by simp
  have hpl : (pre ++ (t ++ s1 ++ b! "stream" ++ e1)) = pre ++ t ++ s1 ++ b! "stream" ++ e1 := by simp
  rw [assoc] at hw ⊢
  rw [hpl] at hl ⊢
  have key := readStreamPart_lost e d (pre ++ t) s1 e1 body e2 sep rest (by rw [hw]; simp) p2 p3 p4 q1 q2 q3 p5 hl hb
  rw [hc, ok_bind] at key
  rw [parse, readDirect_dict e p1 _ _ (by simp; omega), key]
  simp

/-- C129: a stream without a length is read, in every file and whatever its data are, with the number of its data bytes as
length; the other entries of its dictionary stay, and reading goes on behind the word endstream. -/
theorem C129_missing_partial (e : Env) (d : Dict) (pre body head tail behind : Bytes) (h : LostStream d body head tail behind)
    (hw : e.whole = pre ++ (head ++ (body ++ tail))) (hl : valueAt (b! "Length") d = none) :
    ∃ d' off, parse e (head ++ (body ++ tail)) = .ok (.stream d' off, behind) ∧ WithLength d d' body.length ∧
      (e.whole.drop off).take body.length = body := by
  have hs : SortedKeys d := by
    obtain ⟨⟨t, s1, e1, e2, _, _, p1, _⟩, _, _⟩ := h
    exact dict_sorted p1
  rw [valueAt_eq] at hl
  refine ⟨mapInsert (b! "Length") (.int body.length) d, (pre ++ head).length,
    lost_parsed e d _ pre body head tail behind h hw (.inl hl) (by simp [correctLength, hl]; rfl), ⟨?_, ?_⟩, ?_⟩
  · rw [valueAt_eq, mapFind_insert hs, if_pos rfl, hl]
  · intro k hk
    rw [valueAt_eq, valueAt_eq, mapFind_insert hs, if_neg hk]
  · rw [hw, ← List.append_assoc, List.drop_left, List.take_left]

/-- C129: the same for a stream with a wrong length, when no word endstream stands where the length leads to. -/
theorem C129_wrong_partial (e : Env) (d : Dict) (pre body head tail behind : Bytes) (k : Int) (tok : Token) (r : Bytes)
    (h : LostStream d body head tail behind) (hw : e.whole = pre ++ (head ++ (body ++ tail)))
    (hl : valueAt (b! "Length") d = some (.int k))
    (ht : readTokenSkip parserKeywords (e.seek ((pre ++ head).length + k)) = .ok (tok, r))
    (hne : tok.type ≠ .keyword (b! "endstream")) :
    ∃ d' off, parse e (head ++ (body ++ tail)) = .ok (.stream d' off, behind) ∧ WithLength d d' body.length ∧
      (e.whole.drop off).take body.length = body := by
  rw [valueAt_eq] at hl
  refine ⟨dictSet (b! "Length") (.int body.length) d, (pre ++ head).length,
    lost_parsed e d _ pre body head tail behind h hw (.inr ⟨k, tok, r, hl, ht, hne⟩) (by simp [correctLength, hl]; rfl),
    ⟨?_, ?_⟩, ?_⟩
  · rw [valueAt_eq, dictSet_find, if_pos rfl, hl]; rfl
  · intro q hq
    rw [valueAt_eq, valueAt_eq, dictSet_find, if_neg hq]
  · rw [hw, ← List.append_assoc, List.drop_left, List.take_left]

/-- C129 fails for data that end with a carriage return, when a line feed alone follows: the last byte of the data is lost,
in every such stream. -/
theorem C129_return_counterexample (e : Env) (d : Dict) (pre body head behind : Bytes)
    (h : LostStream d body head ([13, 10] ++ b! "endstream" ++ behind) behind)
    (hw : e.whole = pre ++ (head ++ ((body ++ [13]) ++ ([10] ++ b! "endstream" ++ behind))))
    (hl : valueAt (b! "Length") d = none) :
    ∃ d' off, parse e (head ++ ((body ++ [13]) ++ ([10] ++ b! "endstream" ++ behind))) = .ok (.stream d' off, behind) ∧
      valueAt (b! "Length") d' = some (.int body.length) := by
  have assoc : (body ++ [13]) ++ ([10] ++ b! "endstream" ++ behind) = body ++ ([13, 10] ++ b! "endstream" ++ behind) := by simp
  rw [assoc] at hw ⊢
  obtain ⟨d', off, h1, h2, _⟩ := C129_missing_partial e d pre body head _ behind h hw hl
  exact ⟨d', off, h1, h2.1⟩

/-- The text of a dictionary, and data without the word `endstream`, meet the conditions. -/
theorem sampleLost (d : Dict) (hd : Savable (.dict d)) (body e2 : Bytes) (he : e2 ∈ lineEnds)
    (hc : e2 = [10] → body.getLast? ≠ some 13) (hb : ¬ b! "endstream" <:+: body) :
    LostStream d body (writeObj (.dict d) ++ [] ++ b! "stream" ++ [10]) (e2 ++ b! "endstream" ++ b! "\nendobj\n")
      (b! "\nendobj\n") where
  pieces := ⟨writeObj (.dict d), [], [10], e2, rfl, rfl, writeObj_denotes hd, .nil, by simp, he, hc⟩
  ending := ⟨[10], [10], rfl, .ws 10 [] (by decide) .nil, ⟨10, rfl, Or.inl rfl⟩, by decide⟩
  data := hb

/-- A dictionary with one number. -/
theorem sampleLost_savable (k : Bytes) (i : Int) (h1 : -9223372036854775808 ≤ i) (h2 : i ≤ 9223372036854775807) :
    Savable (.dict [(k, .int i)]) :=
  .dict _ (by unfold SortedKeys; simp) (by intro y hy; simp at hy; subst hy; exact .int _ h1 h2)
    (by intro y hy; simp at hy; subst hy; exact Obj.noConfusion)

/-- No length. -/
example : LostStream [(b! "A", .int 1)] (b! "ab\ncd") (b! "<</A 1>>stream\n") (b! "\nendstream\nendobj\n")
      (b! "\nendobj\n") ∧ valueAt (b! "Length") [(b! "A", .int 1)] = none :=
  ⟨sampleLost _ (sampleLost_savable (b! "A") 1 (by decide) (by decide)) (b! "ab\ncd") [10] (by simp [lineEnds]) (by decide)
    (by decide), by decide⟩

/-- A length that leads into the data. -/
example : LostStream [(b! "Length", .int 1)] (b! "ab\ncd") (b! "<</Length 1>>stream\n")
      (b! "\r\nendstream\nendobj\n") (b! "\nendobj\n") ∧
    ∃ tok r, readTokenSkip parserKeywords (b! "b\ncd\r\nendstream\nendobj\n") = .ok (tok, r) ∧
      tok.type ≠ .keyword (b! "endstream") :=
  ⟨sampleLost _ (sampleLost_savable (b! "Length") 1 (by decide) (by decide)) (b! "ab\ncd") [13, 10] (by simp [lineEnds])
    (by decide) (by decide), _, _, rfl, by decide⟩

/-- Data that end with a carriage return. -/
example : LostStream [(b! "A", .int 1)] (b! "ab") (b! "<</A 1>>stream\n") ([13, 10] ++ b! "endstream" ++ b! "\nendobj\n")
    (b! "\nendobj\n") :=
  sampleLost _ (sampleLost_savable (b! "A") 1 (by decide) (by decide)) (b! "ab") [13, 10] (by simp [lineEnds]) (by decide)
    (by decide)

end VPdf
