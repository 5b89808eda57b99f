import Verif.Spec.Zlib

/-! Lemmas on the loops around zlib. -/
namespace VPdf
open Spec (Format Inflates Deflates)

section Inflate

variable {f : Format} {Z : Inflater}

/-- What the inner loop of `Inflate` does. -/
theorem inflateChunk_spec (hZ : Inflates f Z) {good : Bool} {x y : Bytes} (hx : f.Ends good x y) (e : Bool) :
    ∀ (fuel : Nat) {s : Z.σ} {used acc input : Bytes}, hZ.At s used acc → used <+: x → acc <+: y →
      (x <+: used ++ input ∨ used ++ input <+: x) →
      match inflateChunk Z e fuel s input acc with
      | .ok (.returned a) => good = false ∧ a <+: y
      | .ok (.more s' a st) => a <+: y ∧ (good = true ∧ st = .streamEnd ∧ a = y ∨
          st ≠ .streamEnd ∧ hZ.At s' (used ++ input) a ∧ used ++ input <+: x ∧ used ++ input ≠ x)
      | .error .timeout => fuel ≤ y.length - acc.length
      | .error _ => good = false
  | 0, s, used, acc, input, h1, h2, h3, h4 => Nat.zero_le _
  | fuel + 1, s, used, acc, input, h1, h2, h3, h4 => by
    obtain ⟨k1, k2, k3, k4, k5, k6⟩ := hZ.step hx h1 h2 h3 (space := 4096) (by omega) h4
    unfold inflateChunk
    dsimp only
    generalize Z.call s input 4096 = r at *
    rcases k6 with ⟨l1, l2⟩ | ⟨l1, l2, l3, l4⟩ | ⟨l1, l2, l3, l4⟩ | ⟨l1, l2⟩
    · have hrec := inflateChunk_spec hZ hx e fuel (input := input.drop r.used) k3 k5 k4 (by
        rw [List.append_assoc, List.take_append_drop]; exact h4)
      rw [List.append_assoc, List.take_append_drop] at hrec
      have hlen : (acc ++ r.out).length ≤ y.length := k4.length_le
      rw [List.length_append, l1] at hlen
      have key : match inflateChunk Z e fuel r.state (input.drop r.used) (acc ++ r.out) with
          | .ok (.returned a) => good = false ∧ a <+: y
          | .ok (.more s' a st) => a <+: y ∧ (good = true ∧ st = .streamEnd ∧ a = y ∨
              st ≠ .streamEnd ∧ hZ.At s' (used ++ input) a ∧ used ++ input <+: x ∧ used ++ input ≠ x)
          | .error .timeout => fuel + 1 ≤ y.length - acc.length
          | .error _ => good = false := by
        revert hrec
        cases inflateChunk Z e fuel r.state (input.drop r.used) (acc ++ r.out) with
        | ok r => cases r <;> exact fun h => h
        | error e =>
          cases e with
          | timeout => intro h; dsimp only at h ⊢; rw [List.length_append, l1] at h; omega
          | _ => exact fun h => h
      rcases l2 with l2 | l2 | l2 <;> rw [l2] <;> dsimp only <;> rw [if_pos l1] <;> exact key
    · rw [l3, List.take_length] at k3
      rcases l4 with l4 | l4 <;> rw [l4] <;> dsimp only <;> rw [if_neg (by omega)] <;>
        exact ⟨k4, .inr ⟨by decide, k3, l2⟩⟩
    · rw [l4]
      dsimp only
      rw [if_neg (by omega)]
      exact ⟨k4, .inl ⟨l1, rfl, l3⟩⟩
    · rw [l2]
      dsimp only
      by_cases he : e = true
      · rw [if_pos he]; exact ⟨l1, h3⟩
      · rw [if_neg he]; exact l1

/-- What the outer loop of `Inflate` does. -/
theorem inflateLoop_spec (hZ : Inflates f Z) {good : Bool} {x y : Bytes} (hx : f.Ends good x y) (e : Bool) (after : Nat) :
    ∀ (fuel : Nat) {s : Z.σ} {total : Nat} {used acc rest : Bytes}, hZ.At s used acc → used <+: x → used ≠ x → acc <+: y →
      (x <+: used ++ rest ∨ used ++ rest <+: x) →
      match inflateLoop Z e after fuel s total rest acc with
      | .ok z => z <+: y ∧ (good = true → x <+: used ++ rest → z = y)
      | .error .timeout => fuel ≤ rest.length + y.length + 1
      | .error _ => good = false
  | 0, s, total, used, acc, rest, h1, h2, h5, h3, h4 => Nat.zero_le _
  | fuel + 1, s, total, used, acc, rest, h1, h2, h5, h3, h4 => by
    unfold inflateLoop
    dsimp only
    generalize hn : (if (e && decide (after ≤ total)) = true then min 1 rest.length else min rest.length 4096) = n
    have hn1 : rest ≠ [] → 0 < n := by
      intro h
      have : 0 < rest.length := List.length_pos_iff.mpr h
      rw [← hn]; split <;> omega
    by_cases hr : rest = []
    · subst hr
      rw [List.take_nil, if_pos (by rfl)]
      refine ⟨h3, fun _ h => absurd ?_ h5⟩
      rw [List.append_nil] at h
      exact List.IsPrefix.eq_of_length_le h2 h.length_le
    · have hne : rest.take n ≠ [] := by
        rw [Ne, List.take_eq_nil_iff]; rintro (h | h)
        · exact absurd (hn1 hr) (by omega)
        · exact hr h
      rw [if_neg (by simpa using hne)]
      have hlen : 0 < (rest.take n).length := List.length_pos_iff.mpr hne
      have hpre : used ++ rest.take n <+: used ++ rest := List.prefix_append_right_inj _ |>.mpr (List.take_prefix _ _)
      have h4' : x <+: used ++ rest.take n ∨ used ++ rest.take n <+: x := by
        rcases h4 with h | h
        · exact List.prefix_or_prefix_of_prefix h hpre
        · exact .inr (hpre.trans h)
      have hc := inflateChunk_spec hZ hx e fuel h1 h2 h3 h4'
      revert hc
      cases inflateChunk Z e fuel s (rest.take n) acc with
      | error er =>
        cases er with
        | timeout => intro h; dsimp only at h ⊢; omega
        | _ => exact fun h => h
      | ok c =>
        cases c with
        | returned a =>
          rintro ⟨k1, k2⟩
          exact ⟨k2, fun h => by rw [k1] at h; cases h⟩
        | more s' a st =>
          rintro ⟨k1, k2⟩
          dsimp only
          rcases k2 with ⟨k2, k3, k4⟩ | ⟨k2, k3, k4, k5⟩
          · rw [if_pos k3]
            exact ⟨k1, fun _ _ => k4⟩
          · rw [if_neg k2]
            have := inflateLoop_spec hZ hx e after fuel (total := total + (rest.take n).length) (rest := rest.drop n) k3 k4 k5 k1 (by
              rw [List.append_assoc, List.take_append_drop]; exact h4)
            rw [List.append_assoc, List.take_append_drop] at this
            revert this
            cases inflateLoop Z e after fuel s' (total + (rest.take n).length) (rest.drop n) a with
            | ok z => exact fun h => h
            | error er =>
              cases er with
              | timeout =>
                intro h
                dsimp only at h ⊢
                rw [List.length_drop] at h
                have := hn1 hr
                have : 0 < rest.length := List.length_pos_iff.mpr hr
                omega
              | _ => exact fun h => h

end Inflate

section Deflate

variable {f : Format} {D : Deflater}

theorem deflateChunk_run (hD : Deflates f D) (s : D.σ) (used acc input : Bytes) (h : hD.At s used acc) :
    ∃ N s' out st, st ≠ .streamEnd ∧ hD.At s' (used ++ input) out ∧
      ∀ fuel, N ≤ fuel → deflateChunk D false fuel s input acc = .ok (s', out, st) := by
  obtain ⟨k1, k2, k3, k4⟩ := hD.run (input := input) (space := 4096) h (by omega)
  have k3' : (D.call s input 4096 false).status ≠ .streamError := by rcases k3 with k | k <;> rw [k] <;> decide
  have k3'' : (D.call s input 4096 false).status ≠ .streamEnd := by rcases k3 with k | k <;> rw [k] <;> decide
  rcases k4 with ⟨k4, k5⟩ | ⟨k4, k5⟩
  · obtain ⟨N, s', out, st, l1, l2, l3⟩ := deflateChunk_run hD (D.call s input 4096 false).state
      (used ++ input.take (D.call s input 4096 false).used) (acc ++ (D.call s input 4096 false).out)
      (input.drop (D.call s input 4096 false).used) k1
    rw [List.append_assoc, List.take_append_drop] at l2
    refine ⟨N + 1, s', out, st, l1, l2, ?_⟩
    intro fuel hf
    obtain ⟨m, rfl⟩ : ∃ m, fuel = m + 1 := ⟨fuel - 1, by omega⟩
    unfold deflateChunk
    dsimp only
    rw [if_neg k3', if_pos k4]
    exact l3 m (by omega)
  · rw [k5, List.take_length] at k1
    refine ⟨1, _, _, _, k3'', k1, ?_⟩
    intro fuel hf
    obtain ⟨m, rfl⟩ : ∃ m, fuel = m + 1 := ⟨fuel - 1, by omega⟩
    unfold deflateChunk
    dsimp only
    rw [if_neg k3', if_neg (by omega)]
termination_by (input.length, hD.pending s)
decreasing_by
  rw [Prod.lex_def]
  dsimp only
  rw [List.length_drop]
  rcases Nat.eq_zero_or_pos (D.call s input 4096 false).used with h0 | h0
  · right
    exact ⟨by omega, k5.resolve_left (by omega)⟩
  · left; omega

theorem deflateChunk_finish (hD : Deflates f D) (s : D.σ) (used acc : Bytes) (h : hD.Finishing s used acc) :
    ∃ N s' out, f.Complete out used ∧
      ∀ fuel, N ≤ fuel → deflateChunk D true fuel s [] acc = .ok (s', out, .streamEnd) := by
  obtain ⟨k1, k2⟩ := hD.finish (space := 4096) h (by omega)
  rcases k2 with ⟨k2, k3, k4⟩ | ⟨k2, k3, k4⟩
  · obtain ⟨N, s', out, l1, l2⟩ := deflateChunk_finish hD (D.call s [] 4096 true).state used (acc ++ (D.call s [] 4096 true).out) k1
    refine ⟨N + 1, s', out, l1, ?_⟩
    intro fuel hf
    obtain ⟨m, rfl⟩ : ∃ m, fuel = m + 1 := ⟨fuel - 1, by omega⟩
    unfold deflateChunk
    dsimp only
    rw [if_neg (by rcases k4 with k | k | k <;> rw [k] <;> decide), if_pos k2, List.drop_nil]
    exact l2 m (by omega)
  · refine ⟨1, (D.call s [] 4096 true).state, _, k4, ?_⟩
    intro fuel hf
    obtain ⟨m, rfl⟩ : ∃ m, fuel = m + 1 := ⟨fuel - 1, by omega⟩
    unfold deflateChunk
    dsimp only
    rw [if_neg (by rw [k3]; decide), if_neg (by omega), k3]
termination_by hD.pending s

theorem deflateLoop_spec (hD : Deflates f D) (n : Nat) : ∀ (s : D.σ) (used acc rest : Bytes), rest.length ≤ n → hD.At s used acc →
    ∃ N out, f.Complete out (used ++ rest) ∧ ∀ fuel, N ≤ fuel → deflateLoop D fuel s rest acc = .ok out := by
  induction n with
  | zero =>
    intro s used acc rest hn h
    obtain rfl : rest = [] := List.length_eq_zero_iff.mp (by omega)
    obtain ⟨N, s', out, k1, k2⟩ := deflateChunk_finish hD s used acc (hD.begin h)
    refine ⟨N + 1, out, by rwa [List.append_nil], ?_⟩
    intro fuel hf
    obtain ⟨m, rfl⟩ : ∃ m, fuel = m + 1 := ⟨fuel - 1, by omega⟩
    unfold deflateLoop
    dsimp only
    rw [List.take_nil, show ([] : Bytes).isEmpty = true from rfl, k2 m (by omega)]
    dsimp only
    rw [if_pos rfl]
  | succ n ih =>
    intro s used acc rest hn h
    by_cases hr : rest = []
    · exact ih s used acc rest (by rw [hr]; exact Nat.zero_le _) h
    · have hp : 0 < rest.length := List.length_pos_iff.mpr hr
      obtain ⟨N, s', out, st, k1, k2, k3⟩ := deflateChunk_run hD s used acc (rest.take (min rest.length 4096)) h
      obtain ⟨N', out', l1, l2⟩ := ih s' _ out (rest.drop (min rest.length 4096)) (by rw [List.length_drop]; omega) k2
      rw [List.append_assoc, List.take_append_drop] at l1
      refine ⟨N + N' + 1, out', l1, ?_⟩
      intro fuel hf
      obtain ⟨m, rfl⟩ : ∃ m, fuel = m + 1 := ⟨fuel - 1, by omega⟩
      unfold deflateLoop
      dsimp only
      have he : (rest.take (min rest.length 4096)).isEmpty = false := by
        rw [List.isEmpty_eq_false_iff, Ne, List.take_eq_nil_iff]
        rintro (h | h)
        · omega
        · exact hr h
      rw [he, k3 m (by omega)]
      dsimp only
      rw [if_neg k1]
      exact l2 m (by omega)

end Deflate

end VPdf
