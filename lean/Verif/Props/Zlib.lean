import Verif.Lemmas.Zlib

/-! # Compressed data of any size (C87) -/
namespace VPdf
open Spec (Format Inflates Deflates)

/-- **C87**, reading: a complete compressed stream of any size is decompressed to all of its contents; bytes behind it are
ignored.  The number of rounds is bounded by the sizes. -/
theorem C87_inflate {f : Format} {Z : Inflater} (hZ : Inflates f Z) {x y : Bytes} (hx : f.Complete x y) (after : Bytes) {fuel : Nat}
    (hf : (x ++ after).length + y.length + 1 < fuel) : inflateAll Z fuel (x ++ after) = .ok y := by
  have h := inflateLoop_spec hZ (good := true) (x := x) (y := y) hx false (x ++ after).length fuel (total := 0) (rest := x ++ after)
    hZ.start List.nil_prefix (Ne.symm (f.nonempty (.inl hx))) List.nil_prefix (.inl (by rw [List.nil_append]; exact List.prefix_append _ _))
  unfold inflateAll
  revert h
  cases inflateLoop Z false (x ++ after).length fuel Z.start 0 (x ++ after) [] with
  | ok z =>
    rintro ⟨_, h⟩
    rw [h rfl (by rw [List.nil_append]; exact List.prefix_append _ _)]
  | error e =>
    cases e with
    | timeout => intro h; exact absurd h (by dsimp only; omega)
    | _ => intro h; cases h

/-- **C87**, writing: data of any size are compressed to a complete stream for them. -/
theorem C87_deflate {f : Format} {D : Deflater} (hD : Deflates f D) (d : Bytes) :
    ∃ N x, f.Complete x d ∧ ∀ fuel, N ≤ fuel → deflateAll D fuel d = .ok x := by
  obtain ⟨N, x, h1, h2⟩ := deflateLoop_spec hD d.length D.start [] [] d (Nat.le_refl _) hD.start
  exact ⟨N, x, h1, h2⟩

/-- **C87**: what is compressed is decompressed to the same data. -/
theorem C87_round_trip {f : Format} {D : Deflater} {Z : Inflater} (hD : Deflates f D) (hZ : Inflates f Z) (d : Bytes) :
    ∃ N x, ∀ fuel, N ≤ fuel → deflateAll D fuel d = .ok x ∧ inflateAll Z fuel x = .ok d := by
  obtain ⟨N, x, h1, h2⟩ := C87_deflate hD d
  refine ⟨N + (x.length + d.length + 2), x, fun fuel hf => ⟨h2 fuel (by omega), ?_⟩⟩
  have := C87_inflate hZ h1 [] (fuel := fuel) (by rw [List.append_nil]; omega)
  rwa [List.append_nil] at this

/-- **C87**, damaged data: whatever is returned for damaged data is a beginning of the contents, never anything else. -/
theorem C87_damaged {f : Format} {Z : Inflater} (hZ : Inflates f Z) {x y : Bytes} (hx : f.Damaged x y) (after : Bytes) {fuel : Nat}
    {z : Bytes} (h : inflateAll Z fuel (x ++ after) = .ok z) : z <+: y := by
  have hl : ∀ e n, match inflateLoop Z e n fuel Z.start 0 (x ++ after) [] with
      | .ok z => z <+: y ∧ (false = true → x <+: [] ++ (x ++ after) → z = y)
      | .error .timeout => fuel ≤ (x ++ after).length + y.length + 1
      | .error _ => false = false := fun e n =>
    inflateLoop_spec hZ (good := false) (x := x) (y := y) hx e n fuel (total := 0) (rest := x ++ after)
      hZ.start List.nil_prefix (Ne.symm (f.nonempty (.inr hx))) List.nil_prefix (.inl (by rw [List.nil_append]; exact List.prefix_append _ _))
  have hz : ∀ e n, inflateLoop Z e n fuel Z.start 0 (x ++ after) [] = .ok z → z <+: y := by
    intro e n h
    have := hl e n
    rw [h] at this
    exact this.1
  unfold inflateAll at h
  split at h
  · split at h
    · cases h
    · exact hz _ _ h
  · exact hz _ _ h

/-- **C87** is false for truncated data: the beginning of a stream is decompressed without any error. -/
theorem C87_truncated_counterexample {f : Format} {Z : Inflater} (hZ : Inflates f Z) {x x' y : Bytes} (hx : f.Complete x y)
    (hp : x' <+: x) {fuel : Nat} (hf : x'.length + y.length + 1 < fuel) :
    ∃ z, inflateAll Z fuel x' = .ok z ∧ z <+: y := by
  have h := inflateLoop_spec hZ (good := true) (x := x) (y := y) hx false x'.length fuel (total := 0) (rest := x')
    hZ.start List.nil_prefix (Ne.symm (f.nonempty (.inl hx))) List.nil_prefix (.inr (by rwa [List.nil_append]))
  unfold inflateAll
  revert h
  cases inflateLoop Z false x'.length fuel Z.start 0 x' [] with
  | ok z => rintro ⟨h, _⟩; exact ⟨z, rfl, h⟩
  | error e =>
    cases e with
    | timeout => intro h; exact absurd h (by dsimp only; omega)
    | _ => intro h; cases h

/-- **C87** is false for data that are damaged behind less than 4096 bytes of contents, within the first 4096 bytes: nothing
is returned, although zlib decompressed all that comes before the damage. -/
theorem C87_lost_counterexample {f : Format} {Z : Inflater} (hZ : Inflates f Z) {x y after : Bytes} (hx : f.Damaged x y)
    (hl : (x ++ after).length ≤ 4096) (hy : y.length < 4096) {fuel : Nat} (hf : 1 < fuel) :
    inflateAll Z fuel (x ++ after) = .error (.data 0) := by
  have hne := f.nonempty (.inr hx)
  have hp : 0 < (x ++ after).length := by rw [List.length_append]; have := List.length_pos_iff.mpr hne; omega
  obtain ⟨m, rfl⟩ : ∃ m, fuel = m + 2 := ⟨fuel - 2, by omega⟩
  obtain ⟨k1, k2, k3, k4, k5, k6⟩ := hZ.step (good := false) (x := x) (y := y) (input := x ++ after) (space := 4096) hx hZ.start
    List.nil_prefix List.nil_prefix (by omega) (.inl (by rw [List.nil_append]; exact List.prefix_append _ _))
  rw [List.nil_append] at k4
  have hk := k4.length_le
  have hs : (Z.call Z.start (x ++ after) 4096).status = .dataError := by
    rcases k6 with ⟨l1, _⟩ | ⟨_, ⟨l2, l3⟩, _⟩ | ⟨l, _⟩ | ⟨_, l⟩
    · omega
    · exfalso
      rw [List.nil_append] at l2 l3
      exact l3 (List.IsPrefix.eq_of_length_le l2 (by rw [List.length_append]; omega))
    · cases l
    · exact l
  have hc : inflateChunk Z false (m + 1) Z.start (x ++ after) [] = .error (.data 0) := by
    unfold inflateChunk
    dsimp only
    rw [hs]
    rfl
  have hloop : inflateLoop Z false (x ++ after).length (m + 2) Z.start 0 (x ++ after) [] = .error (.data 0) := by
    unfold inflateLoop
    simp only [Bool.false_and, Bool.false_eq_true, if_false, Nat.min_eq_left hl, List.take_length]
    rw [if_neg (by rw [List.isEmpty_iff]; intro h; rw [h] at hp; exact absurd hp (by decide)), hc]
  unfold inflateAll
  rw [hloop]
  rfl

/-! ### A format and machines that keep the contracts -/

/-- Reads pairs 1, byte up to 0: the contents, and where the reading stopped and whether well. -/
def scanPairs : Bytes → Bytes × Option (Nat × Bool)
  | [] => ([], none)
  | [t] => if t = 0 then ([], some (1, true)) else if t = 1 then ([], none) else ([], some (1, false))
  | t :: b :: r =>
    if t = 0 then ([], some (1, true))
    else if t = 1 then
      let (y, e) := scanPairs r
      (b :: y, e.map fun p => (p.1 + 2, p.2))
    else ([], some (1, false))

theorem scanPairs_append : ∀ (x a : Bytes) {y : Bytes} {p : Nat × Bool}, scanPairs x = (y, some p) → scanPairs (x ++ a) = (y, some p)
  | [], _, _, _, h => by simp [scanPairs] at h
  | [t], a, y, p, h => by
    unfold scanPairs at h
    split at h
    · next h0 => subst h0; rw [← h]; cases a <;> rfl
    · next h0 =>
      split at h
      · simp at h
      · next h1 => rw [← h]; cases a <;> simp [scanPairs, h0, h1]
  | t :: b :: r, a, y, p, h => by
    unfold scanPairs at h
    show scanPairs (t :: b :: (r ++ a)) = _
    unfold scanPairs
    split at h
    · next h0 => rw [if_pos h0, h]
    · next h0 =>
      rw [if_neg h0]
      split at h
      · next h1 =>
        rw [if_pos h1]
        cases hr : scanPairs r with
        | mk y' e =>
          rw [hr] at h
          cases e with
          | none => simp at h
          | some q => rw [scanPairs_append r a hr]; exact h
      · next h1 => rw [if_neg h1, h]

theorem scanPairs_prefix : ∀ (x a : Bytes), (scanPairs x).1 <+: (scanPairs (x ++ a)).1
  | [], _ => List.nil_prefix
  | [t], a => by
    have h : (scanPairs [t]).1 = [] := by
      unfold scanPairs
      split
      · rfl
      · split <;> rfl
    rw [h]
    exact List.nil_prefix
  | t :: b :: r, a => by
    show _ <+: (scanPairs (t :: b :: (r ++ a))).1
    unfold scanPairs
    split
    · exact List.nil_prefix
    · split
      · exact (List.prefix_cons_inj b).mpr (scanPairs_prefix r a)
      · exact List.nil_prefix

theorem scanPairs_stop : ∀ (x : Bytes) {y : Bytes} {p : Nat × Bool}, scanPairs x = (y, some p) → p.1 ≤ x.length
  | [], _, _, h => by simp [scanPairs] at h
  | [t], y, p, h => by
    unfold scanPairs at h
    split at h
    · cases h; simp
    · split at h
      · cases h
      · cases h; simp
  | t :: b :: r, y, p, h => by
    unfold scanPairs at h
    split at h
    · cases h; simp
    · split at h
      · cases hr : scanPairs r with
        | mk y' e =>
          rw [hr] at h
          cases e with
          | none => simp at h
          | some q =>
            have := scanPairs_stop r hr
            cases h
            simpa using this
      · cases h; simp

/-- The format of these pairs. -/
def pairsFormat : Format where
  Complete x y := scanPairs x = (y, some (x.length, true))
  Damaged x y := scanPairs x = (y, some (x.length, false))
  nonempty := by
    rintro x y (h | h) rfl <;> simp [scanPairs] at h

/-- A machine that decompresses pairs. -/
def pairsInflater : Inflater where
  σ := Bytes × Nat
  start := ([], 0)
  call s input space :=
    let all := s.1 ++ input
    let out := ((scanPairs all).1.drop s.2).take space
    match (scanPairs all).2 with
    | none => ⟨(all, s.2 + out.length), input.length, out, .ok⟩
    | some (u, good) =>
      ⟨(all.take u, s.2 + out.length), u - s.1.length, out,
        if out.length = space then .ok else if good then .streamEnd else .dataError⟩

theorem take_of_prefix {w y : Bytes} (h : w <+: y) (n : Nat) : w ++ (y.drop w.length).take n = y.take (w.length + n) := by
  obtain ⟨r, rfl⟩ := h
  rw [List.drop_left, List.take_length_add_append]

theorem pairs_ends {good : Bool} {x y : Bytes} (h : pairsFormat.Ends good x y) : scanPairs x = (y, some (x.length, good)) := by
  cases good <;> exact h

theorem pairs_inflates : Nonempty (Inflates pairsFormat pairsInflater) := by
  refine ⟨⟨fun s used written => s = (used, written.length) ∧ written <+: (scanPairs used).1, ⟨rfl, List.nil_prefix⟩, ?_⟩⟩
  rintro s good x y used written input space hx ⟨rfl, hw⟩ hu hy hs hi
  have hx := pairs_ends hx
  by_cases hA : x <+: used ++ input
  · obtain ⟨after, hA⟩ := hA
    have hscan : scanPairs (used ++ input) = (y, some (x.length, good)) := by
      rw [← hA]; exact scanPairs_append x after hx
    obtain ⟨b, rfl⟩ := hu
    have hb : input = b ++ after := by rw [List.append_assoc] at hA; exact (List.append_cancel_left hA).symm
    subst hb
    simp only [pairsInflater, hscan, List.length_append, Nat.add_sub_cancel_left, List.take_left]
    have htake : (used ++ (b ++ after)).take (used.length + b.length) = used ++ b := by
      rw [← List.append_assoc, ← List.length_append, List.take_left]
    have hpre := take_of_prefix hy space
    refine ⟨by omega, by rw [List.length_take]; omega, ⟨by rw [htake], ?_⟩, by rw [hpre]; exact List.take_prefix _ _,
      List.prefix_refl _, ?_⟩
    · rw [hx, hpre]; exact List.take_prefix _ _
    · by_cases hfull : ((y.drop written.length).take space).length = space
      · exact .inl ⟨hfull, .inl (by rw [if_pos hfull])⟩
      · refine .inr (.inr ?_)
        rw [if_neg hfull]
        have hlt : ((y.drop written.length).take space).length < space := by
          rw [List.length_take] at hfull ⊢; omega
        cases good with
        | true =>
          refine .inl ⟨rfl, hlt, ?_, rfl⟩
          rw [hpre, List.take_of_length_le]
          rw [List.length_take, List.length_drop] at hlt
          omega
        | false => exact .inr ⟨rfl, rfl⟩
  · have hB := hi.resolve_left hA
    have hne : used ++ input ≠ x := by rintro rfl; exact hA (List.prefix_refl _)
    obtain ⟨c, hc⟩ := hB
    have hnone : (scanPairs (used ++ input)).2 = none := by
      cases hsc : (scanPairs (used ++ input)).2 with
      | none => rfl
      | some p =>
        exfalso
        have h1 := scanPairs_append (used ++ input) c (y := (scanPairs (used ++ input)).1) (p := p) (by rw [← hsc])
        have h2 := scanPairs_stop (used ++ input) (y := (scanPairs (used ++ input)).1) (p := p) (by rw [← hsc])
        rw [hc, hx] at h1
        have h3 : (x.length, good) = p := by simpa using congrArg Prod.snd h1
        rw [← h3, ← hc, List.length_append] at h2
        have : c = [] := List.length_eq_zero_iff.mp (by simp at h2; omega)
        rw [this, List.append_nil] at hc
        exact hne hc
    have hp1 : (scanPairs (used ++ input)).1 <+: y := by
      have := scanPairs_prefix (used ++ input) c
      rwa [hc, hx] at this
    have hw2 : written <+: (scanPairs (used ++ input)).1 := hw.trans (scanPairs_prefix used input)
    have hpre := take_of_prefix hw2 space
    simp only [pairsInflater, hnone, List.take_length]
    refine ⟨Nat.le_refl _, by rw [List.length_take]; omega, ⟨by rw [List.length_append], ?_⟩, ?_, ⟨c, hc⟩, ?_⟩
    · rw [hpre]; exact List.take_prefix _ _
    · rw [hpre]; exact (List.take_prefix _ _).trans hp1
    · by_cases hfull : (((scanPairs (used ++ input)).1.drop written.length).take space).length = space
      · exact .inl ⟨hfull, .inl trivial⟩
      · refine .inr (.inl ⟨?_, ⟨⟨c, hc⟩, hne⟩, trivial, .inl trivial⟩)
        rw [List.length_take] at hfull ⊢; omega

/-- The pairs for some contents. -/
def encodePairs : Bytes → Bytes
  | [] => [0]
  | b :: r => 1 :: b :: encodePairs r

theorem encodePairs_complete : ∀ d, scanPairs (encodePairs d) = (d, some ((encodePairs d).length, true))
  | [] => rfl
  | b :: r => by
    show scanPairs (1 :: b :: encodePairs r) = _
    unfold scanPairs
    rw [encodePairs_complete r]
    rfl

/-- A machine that compresses to pairs. -/
def pairsDeflater : Deflater where
  σ := Bytes × Nat
  start := ([], 0)
  call s input space finish :=
    if finish then
      let out := ((encodePairs s.1).drop s.2).take space
      ⟨(s.1, s.2 + out.length), 0, out, if out.length = space then .ok else .streamEnd⟩
    else ⟨(s.1 ++ input, s.2), input.length, [], .ok⟩

theorem pairs_deflates : Nonempty (Deflates pairsFormat pairsDeflater) := by
  refine ⟨⟨fun s used written => s = (used, 0) ∧ written = [],
    fun s used written => s = (used, written.length) ∧ written <+: encodePairs used,
    fun s => (encodePairs s.1).length - s.2, ?_, ⟨rfl, rfl⟩, ?_, ?_⟩⟩
  · rintro s used written ⟨rfl, rfl⟩
    exact ⟨rfl, List.nil_prefix⟩
  · rintro s used written input space ⟨rfl, rfl⟩ hs
    simp only [pairsDeflater, Bool.false_eq_true, if_false, List.take_length]
    exact ⟨⟨trivial, rfl⟩, Nat.le_refl _, .inl trivial, .inr ⟨hs, trivial⟩⟩
  · rintro s used written space ⟨rfl, hw⟩ hs
    have hpre := take_of_prefix hw space
    simp only [pairsDeflater, if_true]
    refine ⟨⟨by rw [List.length_append], by rw [hpre]; exact List.take_prefix _ _⟩, ?_⟩
    by_cases hfull : (((encodePairs used).drop written.length).take space).length = space
    · refine .inl ⟨hfull, ?_, .inl (by rw [if_pos hfull])⟩
      rw [hfull]
      rw [List.length_take, List.length_drop] at hfull
      omega
    · rw [if_neg hfull]
      have hlt : (((encodePairs used).drop written.length).take space).length < space := by
        rw [List.length_take] at hfull ⊢; omega
      refine .inr ⟨hlt, rfl, ?_⟩
      rw [hpre, List.take_of_length_le]
      · exact encodePairs_complete used
      · rw [List.length_take, List.length_drop] at hlt
        omega

/-- The hypotheses are met: data of any size through these machines. -/
example (d : Bytes) : ∃ N x, ∀ fuel, N ≤ fuel → deflateAll pairsDeflater fuel d = .ok x ∧ inflateAll pairsInflater fuel x = .ok d :=
  C87_round_trip (Classical.choice pairs_deflates) (Classical.choice pairs_inflates) d

example : inflateAll pairsInflater 11 ([1, 7, 1, 8, 0] ++ b! "xx") = .ok [7, 8] :=
  C87_inflate (Classical.choice pairs_inflates) (f := pairsFormat) (by exact rfl) _ (by decide)

set_option maxRecDepth 100000 in
/-- A stream that is damaged behind its first 4096 bytes: all contents before the damage are returned. -/
example : (inflateAll pairsInflater 6 ((List.replicate 2048 [1, 7]).flatten ++ [9])).toOption = some (List.replicate 2048 7) := by
  decide +kernel

/-- A stream without its end. -/
example : ∃ z, inflateAll pairsInflater 7 [1, 7, 1] = .ok z ∧ z <+: [7, 8] :=
  C87_truncated_counterexample (Classical.choice pairs_inflates) (x := [1, 7, 1, 8, 0]) (f := pairsFormat) (by exact rfl) ⟨[8, 0], rfl⟩ (by decide)

/-- A damaged stream: the good bytes 7 and 8 are lost. -/
example : inflateAll pairsInflater 2 ([1, 7, 1, 8, 9] ++ [1, 1, 0]) = .error (.data 0) :=
  C87_lost_counterexample (Classical.choice pairs_inflates) (y := [7, 8]) (f := pairsFormat) (by exact rfl) (by decide) (by decide) (by decide)

end VPdf
