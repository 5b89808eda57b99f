import Verif.Lemmas.Recovery
import Verif.Lemmas.Writer
/-
  The length of a stream found by the word endstream.
-/
namespace VPdf
open Spec

/-- The position of the end of the data, without the line end in front of `endstream`. -/
theorem endstreamLine_found (e : Env) (pre body e2 rest r' : Bytes) (hpre : pre.getLast? = some 10)
    (hw : e.whole = pre ++ body ++ e2 ++ (b! "endstream" ++ rest)) (h2 : 2 ≤ pre.length) (he : e2 ∈ lineEnds)
    (hcr : e2 = [10] → body.getLast? ≠ some 13) (hends : EndsToken rest) :
    endstreamLine e (b! "endstream" ++ rest) r' 0 = .ok ((pre.length : Int) + body.length, rest) := by
  have hpos := pos_suffix e _ _ hw
  have hk := expectSkip_token (skip_keyword (p := []) .nil 0x65 (b! "ndstream") rest (by decide) (by decide) (by decide) hends)
  obtain ⟨a, x, hlast⟩ : ∃ a x, pre ++ body = a ++ [x] := by
    refine ⟨(pre ++ body).dropLast, (pre ++ body).getLast (by intro h; simp at h; simp [h.1] at h2), ?_⟩
    exact (List.dropLast_concat_getLast _).symm
  have hx : e2 = [10] → x ≠ 13 := by
    intro h2e hx
    have hb := hcr h2e
    have hl : (pre ++ body).getLast? = some x := by rw [hlast]; simp
    rw [List.getLast?_append] at hl
    cases hbl : body.getLast? with
    | none => rw [hbl, hpre] at hl; simp at hl; rw [← hl] at hx; exact absurd hx (by decide)
    | some y => rw [hbl] at hl; simp at hl; rw [hbl, hl, hx] at hb; exact hb rfl
  have hlen : (pre.length : Int) + body.length = a.length + 1 := by
    have := congrArg List.length hlast
    simp at this; omega
  simp only [lineEnds, List.mem_cons, List.not_mem_nil, or_false] at he
  have hk' : expectSkip parserKeywords (.keyword (b! "endstream")) (b! "endstream" ++ rest) = .ok (_, rest) := hk
  rw [hlen]
  rcases he with rfl | rfl | rfl
  · have hx := hx rfl
    have hback : e.seek ((((pre ++ body ++ [10]).length : Nat) : Int) - 2) = x :: 10 :: (b! "endstream" ++ rest) := by
      unfold Env.seek
      rw [if_neg (by simp; omega), hw, hlast]
      have : ((((a ++ [x] ++ [10]).length : Nat) : Int) - 2).toNat = a.length := by simp
      rw [this]; simp
    unfold endstreamLine
    simp only [hpos, hback]
    rw [if_pos (by simp)]
    simp only [List.head?_cons, List.tail_cons, List.drop_succ_cons, List.drop_zero]
    rw [hk', ok_bind]
    rw [hlast]
    simp [hx]
    refine congrArg (fun i : Int => (Except.ok (i, rest) : Res (Int × Bytes))) ?_
    omega
  · have hback : e.seek ((((pre ++ body ++ [13]).length : Nat) : Int) - 2) = x :: 13 :: (b! "endstream" ++ rest) := by
      unfold Env.seek
      rw [if_neg (by simp; omega), hw, hlast]
      have : ((((a ++ [x] ++ [13]).length : Nat) : Int) - 2).toNat = a.length := by simp
      rw [this]; simp
    unfold endstreamLine
    simp only [hpos, hback]
    rw [if_pos (by simp)]
    simp only [List.head?_cons, List.tail_cons, List.drop_succ_cons, List.drop_zero]
    rw [hk', ok_bind]
    rw [hlast]
    simp
    refine congrArg (fun i : Int => (Except.ok (i, rest) : Res (Int × Bytes))) ?_
    omega
  · have hback : e.seek ((((pre ++ body ++ [13, 10]).length : Nat) : Int) - 2) = 13 :: 10 :: (b! "endstream" ++ rest) := by
      unfold Env.seek
      rw [if_neg (by simp; omega), hw, hlast]
      have : ((((a ++ [x] ++ [13, 10]).length : Nat) : Int) - 2).toNat = a.length + 1 := by simp; omega
      rw [this]; simp
    unfold endstreamLine
    simp only [hpos, hback]
    rw [if_pos (by simp)]
    simp only [List.head?_cons, List.tail_cons, List.drop_succ_cons, List.drop_zero]
    rw [hk', ok_bind]
    rw [hlast]
    simp
    refine congrArg (fun i : Int => (Except.ok (i, rest) : Res (Int × Bytes))) ?_
    omega

/-- What stands behind the data, when the word `endstream` is reached. -/
theorem lostLength_found (e : Env) (d : Dict) (pre body e2 rest : Bytes) (f : Nat) (hpre : pre.getLast? = some 10)
    (hw : e.whole = pre ++ body ++ e2 ++ (b! "endstream" ++ rest)) (h2 : 2 ≤ pre.length) (he : e2 ∈ lineEnds)
    (hcr : e2 = [10] → body.getLast? ≠ some 13) (t : Token) (r : Bytes) {el r' : Bytes} (hel : el ∈ lineEnds)
    (hr' : el = [13] → r'.head? ≠ some 10) (hrest : rest = el ++ r') (hpeek : readTokenSkip parserKeywords r' = .ok (t, r)) :
    streamFallback e d pre.length (f + 1) (b! "endstream" ++ rest) =
      (correctLength e d body.length >>= fun d' => .ok (d', rest)) := by
  have hline : readLine (b! "endstream" ++ rest) = (b! "endstream", r') := by
    rw [hrest]; exact readLine_lineEnd (by decide) hel hr'
  have hf : findSub (b! "endstream") (b! "endstream") = some 0 := by decide
  have hend := endstreamLine_found e pre body e2 rest r' hpre hw h2 he hcr (by rw [hrest]; exact lineEnd_ends hel r')
  have hcons : b! "endstream" ++ rest = 0x65 :: (b! "ndstream" ++ rest) := rfl
  rw [hcons] at hline hend ⊢
  rw [streamFallback]
  case x_3 => intro h; cases h
  simp only [hline, hf]
  rw [hpeek, ok_bind, hend, ok_bind]
  dsimp only
  have : max 0 ((pre.length : Int) + body.length + ((0 : Nat) : Int) - pre.length) = body.length := by omega
  rw [this]
  rfl

/-- A stream whose dictionary does not lead to `endstream` is ended by that word. -/
theorem readStreamPart_lost (e : Env) (d : Dict) (pre s1 e1 body e2 sep' rest : Bytes)
    (hw : e.whole = pre ++ (s1 ++ (b! "stream" ++ (e1 ++ (body ++ (e2 ++ (b! "endstream" ++ (sep' ++ (b! "endobj" ++ rest)))))))))
    (h1 : Sep s1)
    (he1 : e1 ∈ ([[10], [13, 10]] : List (List UInt8))) (he2 : e2 ∈ lineEnds) (h2 : Sep sep')
    (hh : ∃ c ∈ sep'.head?, c = 10 ∨ c = 13) (hr : EndsToken rest) (hcr : e2 = [10] → body.getLast? ≠ some 13)
    (hl : mapFind (b! "Length") d = none ∨ ∃ k tok r, mapFind (b! "Length") d = some (.int k) ∧
      readTokenSkip parserKeywords (e.seek ((pre ++ s1 ++ b! "stream" ++ e1).length + k)) = .ok (tok, r) ∧
      tok.type ≠ .keyword (b! "endstream")) (hb : ¬ b! "endstream" <:+: body) :
    readStreamPart e d (s1 ++ (b! "stream" ++ (e1 ++ (body ++ (e2 ++ (b! "endstream" ++ (sep' ++ (b! "endobj" ++ rest)))))))) =
      (correctLength e d body.length >>= fun d' =>
        .ok (.stream d' (pre ++ s1 ++ b! "stream" ++ e1).length, sep' ++ (b! "endobj" ++ rest))) := by
  have hee : EndsToken (e1 ++ (body ++ (e2 ++ (b! "endstream" ++ (sep' ++ (b! "endobj" ++ rest)))))) := lineEnd_ends (by
    simp only [lineEnds, List.mem_cons, List.not_mem_nil, or_false] at he1 ⊢; tauto) _
  have k1 := skip_keyword h1 0x73 (b! "tream") (e1 ++ (body ++ (e2 ++ (b! "endstream" ++ (sep' ++ (b! "endobj" ++ rest))))))
    (by decide) (by decide) (by decide) hee
  have k2 : readToken parserKeywords (e1 ++ (body ++ (e2 ++ (b! "endstream" ++ (sep' ++ (b! "endobj" ++ rest)))))) =
      .ok (⟨.eol, []⟩, body ++ (e2 ++ (b! "endstream" ++ (sep' ++ (b! "endobj" ++ rest))))) := by
    simp only [List.mem_cons, List.not_mem_nil, or_false] at he1
    rcases he1 with rfl | rfl <;> rfl
  have k3 : ∀ q, Sep q → readTokenSkip parserKeywords (q ++ (b! "endobj" ++ rest)) = .ok (⟨.keyword (b! "endobj"), b! "endobj"⟩, rest) :=
    fun q hq => skip_keyword hq 0x65 (b! "ndobj") rest (by decide) (by decide) (by decide) hr
  have hpos : e.pos (body ++ (e2 ++ (b! "endstream" ++ (sep' ++ (b! "endobj" ++ rest))))) = (pre ++ s1 ++ b! "stream" ++ e1).length :=
    pos_suffix e _ _ (by rw [hw]; simp)
  have hsplit : ∃ el r', el ∈ lineEnds ∧ (el = [13] → r'.head? ≠ some 10) ∧ sep' ++ (b! "endobj" ++ rest) = el ++ r' ∧
      ∃ t r, readTokenSkip parserKeywords r' = .ok (t, r) := by
    obtain ⟨c, hc, hcc⟩ := hh
    cases sep' with
    | nil => simp at hc
    | cons a q =>
      have : a = c := by simpa using hc
      subst this
      have hq : Sep q := by
        cases h2 with
        | ws _ _ _ h => exact h
        | comment => rcases hcc with h | h <;> exact absurd h (by decide)
      rcases hcc with rfl | rfl
      · exact ⟨[10], q ++ (b! "endobj" ++ rest), by simp [lineEnds], by simp, by simp, _, _, k3 q hq⟩
      · by_cases h10 : ∃ q', q = 10 :: q'
        · obtain ⟨q', rfl⟩ := h10
          have hq' : Sep q' := by
            cases hq with
            | ws _ _ _ h => exact h
          exact ⟨[13, 10], q' ++ (b! "endobj" ++ rest), by simp [lineEnds], by simp, by simp, _, _, k3 q' hq'⟩
        · refine ⟨[13], q ++ (b! "endobj" ++ rest), by simp [lineEnds], ?_, by simp, _, _, k3 q hq⟩
          intro _ hx
          cases q with
          | nil => simp at hx
          | cons a q => exact h10 ⟨q, by simp at hx; rw [hx]⟩
  obtain ⟨el, r', g1, g2, g3, t, r, g4⟩ := hsplit
  obtain ⟨f', hf', hskip⟩ := streamFallback_skip e d (pre ++ s1 ++ b! "stream" ++ e1).length
    (b! "endstream" ++ (sep' ++ (b! "endobj" ++ rest))) (by simp) (by simp) body.length body e2
    ((body ++ (e2 ++ (b! "endstream" ++ (sep' ++ (b! "endobj" ++ rest))))).length + 1) (Nat.le_refl _) hb he2 (Nat.lt_succ_self _)
  have hfound : streamFallback e d (pre ++ s1 ++ b! "stream" ++ e1).length f' (b! "endstream" ++ (sep' ++ (b! "endobj" ++ rest))) =
      (correctLength e d body.length >>= fun d' => .ok (d', sep' ++ (b! "endobj" ++ rest))) := by
    cases f' with
    | zero => omega
    | succ f' =>
      refine lostLength_found e d (pre ++ s1 ++ b! "stream" ++ e1) body e2 _ f' ?_ (by rw [hw]; simp) (by simp; omega) he2 hcr t r g1 g2 g3 g4
      simp only [List.mem_cons, List.not_mem_nil, or_false] at he1
      rcases he1 with rfl | rfl <;> simp
  rw [hfound] at hskip
  generalize hoff : (pre ++ s1 ++ b! "stream" ++ e1).length = off at hpos hskip hl ⊢
  rw [readStreamPart]
  erw [k1]
  rw [ok_bind]; dsimp only
  rw [if_pos (by decide), k2, ok_bind]; dsimp only
  rw [if_neg (by decide)]
  have hfb : (do
      let x ← streamFallback e d off ((body ++ (e2 ++ (b! "endstream" ++ (sep' ++ (b! "endobj" ++ rest))))).length + 1)
        (body ++ (e2 ++ (b! "endstream" ++ (sep' ++ (b! "endobj" ++ rest)))))
      pure (PObj.stream x.1 off, x.2) : Res (PObj × Bytes)) =
      (correctLength e d body.length >>= fun d' => .ok (.stream d' off, sep' ++ (b! "endobj" ++ rest))) := by
    rw [hskip]
    cases correctLength e d body.length <;> rfl
  rcases hl with hl | ⟨k, tok, rr, hl, htok, hne⟩
  · simp only [hpos, hl]
    exact hfb
  · simp only [hpos, hl]
    rw [if_neg (by simp)]
    have ha : asInt e (.int k) = .ok k := rfl
    rw [ha, ok_bind, htok, ok_bind]
    dsimp only
    rw [if_neg (by simpa using hne)]
    exact hfb

end VPdf
