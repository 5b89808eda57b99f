import Verif.Spec.LastError
/-
  C94: the last error of a thread.
-/
namespace VPdf
open Spec

theorem takeWhile_clean {s : Bytes} (h : ∀ b ∈ s, b ≠ 0) : s.takeWhile (· != 0) = s := by
  induction s with
  | nil => rfl
  | cons b s ih =>
    rw [List.takeWhile_cons, if_pos (by simpa using h b (by simp)), ih fun c hc => h c (by simp [hc])]

/-- The buffer of the message keeps its size. -/
theorem setMessage_size {e : LastError} (h : e.message.length = maxMessage) (what : Bytes) :
    (setMessage e what).message.length = maxMessage := by
  unfold setMessage copyBytes
  simp only [List.length_set, List.length_append, List.length_take, List.length_drop, h]
  unfold maxMessage
  omega

theorem finish_size {e : LastError} (h : e.message.length = maxMessage) (c : CallEnd) : (finish e c).2.message.length = maxMessage := by
  cases c with
  | returns code => exact h
  | exception code what => exact setMessage_size h what
  | standard what => exact setMessage_size h what
  | unknown => exact h

theorem finishAll_size (l : List (Nat × CallEnd)) : ∀ (s : Nat → LastError), (∀ t, (s t).message.length = maxMessage) →
    ∀ t, (finishAll s l t).message.length = maxMessage := by
  induction l with
  | nil => intro s h; exact h
  | cons x l ih =>
    intro s h
    refine ih _ fun t => ?_
    split
    · exact finish_size (h _) _
    · exact h t

theorem finishAll_append (l m : List (Nat × CallEnd)) : ∀ s, finishAll s (l ++ m) = finishAll (finishAll s l) m := by
  induction l with
  | nil => intro s; rfl
  | cons x l ih => intro s; exact ih _

theorem finishAll_quiet (t : Nat) (l : List (Nat × CallEnd)) (h : QuietFor t l) : ∀ s, finishAll s l t = s t := by
  induction l with
  | nil => intro s; rfl
  | cons x l ih =>
    intro s
    rw [finishAll, ih (fun c hc => h c (by simp [hc]))]
    split
    · rename_i he
      obtain ⟨code, hc⟩ := h x (by simp) he.symm
      rw [hc, finish, he]
    · rfl

/-- The failure of thread `t` that is the newest one. -/
theorem finishAll_last (t : Nat) (c : CallEnd) (before after : List (Nat × CallEnd)) (hq : QuietFor t after) (s : Nat → LastError) :
    finishAll s (before ++ (t, c) :: after) t = (finish (finishAll s before t) c).2 := by
  rw [finishAll_append, finishAll, finishAll_quiet t after hq]
  simp

/-- The message of a failure, when it has at most 254 bytes. -/
theorem setMessage_short {e : LastError} {what : Bytes} (hw : ∀ b ∈ what, b ≠ 0)
    (hl : what.length ≤ 254) : (setMessage e what).length = what.length + 1 ∧
      ∃ rest, (setMessage e what).message = what ++ 0 :: rest := by
  unfold setMessage
  simp only [takeWhile_clean hw, List.length_append, List.length_singleton]
  have hmin : min (what.length + 1) (maxMessage - 1) = what.length + 1 := by unfold maxMessage; omega
  rw [hmin]
  refine ⟨rfl, ?_⟩
  unfold copyBytes
  rw [List.take_of_length_le (by simp)]
  have hset : ((what ++ [0]) ++ e.message.drop (what.length + 1)).set (what.length + 1) 0 =
      (what ++ [0]) ++ (e.message.drop (what.length + 1)).set 0 0 := by
    rw [List.set_append_right _ _ (by simp)]
    simp
  rw [hset]
  exact ⟨(e.message.drop (what.length + 1)).set 0 0, by simp⟩

/-- The message of a failure, when it has more than 254 bytes. -/
theorem setMessage_long {e : LastError} (h : e.message.length = maxMessage) {what : Bytes} (hw : ∀ b ∈ what, b ≠ 0)
    (hl : 255 ≤ what.length) : (setMessage e what).length = 255 ∧ (setMessage e what).message = what.take 255 ++ [0] := by
  unfold setMessage
  simp only [takeWhile_clean hw, List.length_append, List.length_singleton]
  have hmin : min (what.length + 1) (maxMessage - 1) = 255 := by unfold maxMessage; omega
  rw [hmin]
  refine ⟨rfl, ?_⟩
  unfold copyBytes
  rw [List.take_append_of_le_length hl, List.set_append_right _ _ (by simp; omega)]
  congr 1
  have : (e.message.drop 255).length = 1 := by rw [List.length_drop, h]; rfl
  match hd : e.message.drop 255, this with
  | [b], _ =>
    have : (255 - (what.take 255).length) = 0 := by simp; omega
    rw [this]; rfl

/-- **C94** (partial): after a call of thread `t` failed with a message of at most 254 bytes (and no zero byte), whatever calls
other threads make, and whatever calls of `t` return without an exception, the thread is told the code of the failure, the
length of the message with its end, and the message itself in any buffer that is long enough; of the buffer no more than the
announced length is written, and a buffer that is too short is refused and left alone.  Missing: longer messages
(`C94_long_counterexample`), failures that are no exceptions (`C94_returned_counterexample`), exceptions that are no
`std::exception` (`C94_unknown_counterexample`). -/
theorem C94_message_partial (t : Nat) (before after : List (Nat × CallEnd)) (hq : QuietFor t after) (c : CallEnd) (what : Bytes)
    (hc : (∃ code, c = .exception code what) ∨ c = .standard what) (hw : ∀ b ∈ what, b ≠ 0) (hl : what.length ≤ 254) :
    let e := finishAll (fun _ => {}) (before ++ (t, c) :: after) t
    getLastError e = (finish (finishAll (fun _ => {}) before t) c).1 ∧ getMessageLength e = what.length + 1 ∧
    ∀ data : Bytes, (what.length < data.length → (getMessage e data data.length).1 = 0 ∧
        HasText (getMessage e data data.length).2 what ∧
        (getMessage e data data.length).2.drop (what.length + 1) = data.drop (what.length + 1)) ∧
      (data.length ≤ what.length → getMessage e data data.length = (errorGeneral, data)) := by
  intro e
  have he : e = (finish (finishAll (fun _ => {}) before t) c).2 := finishAll_last t c before after hq _
  have hsz := finishAll_size before (fun _ => {}) (fun _ => List.length_replicate) t
  generalize finishAll (fun _ => {}) before t = s0 at he hsz
  have key : ∃ s1 : LastError, s1.message.length = maxMessage ∧ (finish s0 c).2 = setMessage s1 what ∧ s1.code = (finish s0 c).1 := by
    rcases hc with ⟨code, rfl⟩ | rfl
    · exact ⟨{ s0 with code := code }, hsz, rfl, rfl⟩
    · exact ⟨{ s0 with code := errorGeneral }, hsz, rfl, rfl⟩
  obtain ⟨s1, k1, k2, k3⟩ := key
  rw [he, k2, ← k3]
  obtain ⟨m1, rest, m2⟩ := setMessage_short (e := s1) hw hl
  refine ⟨rfl, m1, fun data => ⟨fun hd => ?_, fun hd => ?_⟩⟩
  · unfold getMessage
    rw [if_neg (by rw [m1]; omega), m1, m2]
    have : copyBytes data (what ++ 0 :: rest) (what.length + 1) = what ++ 0 :: data.drop (what.length + 1) := by
      unfold copyBytes
      rw [show what ++ 0 :: rest = (what ++ [0]) ++ rest by simp, List.take_append_of_le_length (by simp),
        List.take_of_length_le (by simp)]
      simp
    rw [this]
    refine ⟨rfl, ⟨hw, _, rfl⟩, ?_⟩
    rw [show what ++ 0 :: data.drop (what.length + 1) = (what ++ [0]) ++ data.drop (what.length + 1) by simp,
      List.drop_append_of_le_length (by simp), List.drop_of_length_le (by simp)]
    rfl
  · unfold getMessage
    rw [if_pos (by rw [m1]; omega)]

/-- Two threads with failures: thread 1 keeps its message. -/
example : QuietFor 1 [(2, .exception 3 (b! "b")), (1, .returns 0x10003)] ∧
    getLastError (finishAll (fun _ => {}) [(2, .unknown), (1, .exception 2 (b! "abc")), (2, .exception 3 (b! "b")), (1, .returns 0x10003)] 1) = 2 := by
  refine ⟨?_, by decide +kernel⟩
  intro c hc h
  simp at hc
  rcases hc with rfl | rfl
  · cases h
  · exact ⟨_, rfl⟩

/-- **C94** fails of every message of more than 254 bytes: in a buffer of the announced length there is no end of the text, so
that reading it goes beyond the buffer. -/
theorem C94_long_counterexample (t : Nat) (before after : List (Nat × CallEnd)) (hq : QuietFor t after) (code : Nat) (what : Bytes)
    (hw : ∀ b ∈ what, b ≠ 0) (hl : 255 ≤ what.length) :
    let e := finishAll (fun _ => {}) (before ++ (t, .exception code what) :: after) t
    getMessageLength e = 255 ∧ ∀ data : Bytes, data.length = getMessageLength e →
      getMessage e data data.length = (0, what.take 255) ∧ ¬ ∃ s, HasText (getMessage e data data.length).2 s := by
  intro e
  have he : e = (finish (finishAll (fun _ => {}) before t) (.exception code what)).2 := finishAll_last t _ before after hq _
  have hsz := finishAll_size before (fun _ => {}) (fun _ => List.length_replicate) t
  generalize finishAll (fun _ => {}) before t = s0 at he hsz
  obtain ⟨m1, m2⟩ := setMessage_long (e := { s0 with code := code }) hsz hw hl
  rw [he]
  refine ⟨m1, fun data hd => ?_⟩
  have hg : getMessage (finish s0 (.exception code what)).2 data data.length = (0, what.take 255) := by
    unfold getMessage
    rw [if_neg (by rw [hd]; exact Nat.lt_irrefl _), show (finish s0 (.exception code what)).2.length = 255 from m1,
      show (finish s0 (.exception code what)).2.message = what.take 255 ++ [0] from m2]
    unfold copyBytes
    rw [List.take_append_of_le_length (by simp; omega), List.take_of_length_le (by simp; omega),
      List.drop_of_length_le (by rw [hd]; exact Nat.le_of_eq m1), List.append_nil]
  refine ⟨hg, ?_⟩
  rw [hg]
  rintro ⟨s, _, rest, hr⟩
  dsimp only at hr
  have : (0 : UInt8) ∈ what.take 255 := by rw [hr]; simp
  exact hw 0 (List.mem_of_mem_take this) rfl

/-- **C94** fails of failures that are no exceptions (a missing argument, a missing object, a wrong type): the code that is
returned is not the last error. -/
theorem C94_returned_counterexample (e : LastError) (code : Nat) :
    (finish e (.returns code)).1 = code ∧ getLastError (finish e (.returns code)).2 = getLastError e ∧
    getLastError (finish {} (.returns 0x10003)).2 = 0 := ⟨rfl, rfl, rfl⟩

/-- **C94** fails of exceptions that are no `std::exception`: the message is the one of an earlier failure. -/
theorem C94_unknown_counterexample (e : LastError) : (finish e .unknown).1 = errorGeneral ∧
    getLastError (finish e .unknown).2 = errorGeneral ∧ (finish e .unknown).2.message = e.message ∧
    (finish e .unknown).2.length = e.length := ⟨rfl, rfl, rfl, rfl⟩

/-- **C94**: every code of the library has a text of its own; the announced length includes its end, a buffer of that length
or more receives it, nothing behind it is written, and a shorter buffer is refused and left alone. -/
theorem C94_printable : (∀ x ∈ errorNames, printableLength x.1 = some (x.2.length + 1) ∧ ∀ data : Bytes,
      (x.2.length < data.length → (printableText x.1 data data.length).1 = 0 ∧ HasText (printableText x.1 data data.length).2 x.2 ∧
        (printableText x.1 data data.length).2.drop (x.2.length + 1) = data.drop (x.2.length + 1)) ∧
      (data.length ≤ x.2.length → printableText x.1 data data.length = (errorGeneral, data))) ∧
    errorNames.Pairwise (fun x y => x.1 ≠ y.1 ∧ x.2 ≠ y.2) := by
  refine ⟨fun x hx => ?_, by decide +kernel⟩
  have hv : valueName x.1 = some (x.2 ++ [0]) := by
    have : ∀ x ∈ errorNames, valueName x.1 = some (x.2 ++ [0]) := by decide +kernel
    exact this x hx
  have hz : ∀ b ∈ x.2, b ≠ 0 := by
    have : ∀ x ∈ errorNames, ∀ b ∈ x.2, b ≠ 0 := by decide +kernel
    exact this x hx
  refine ⟨by unfold printableLength; rw [hv]; simp, fun data => ⟨fun hd => ?_, fun hd => ?_⟩⟩
  · unfold printableText
    rw [hv]
    dsimp only
    rw [if_neg (by simp; omega)]
    have : copyBytes data (x.2 ++ [0]) (x.2 ++ [0]).length = x.2 ++ 0 :: data.drop (x.2.length + 1) := by
      unfold copyBytes
      rw [List.take_of_length_le (by simp)]
      simp
    rw [this]
    refine ⟨rfl, ⟨hz, _, rfl⟩, ?_⟩
    rw [show x.2 ++ 0 :: data.drop (x.2.length + 1) = (x.2 ++ [0]) ++ data.drop (x.2.length + 1) by simp,
      List.drop_append_of_le_length (by simp), List.drop_of_length_le (by simp)]
    rfl
  · unfold printableText
    rw [hv]
    dsimp only
    rw [if_pos (by simp; omega)]

end VPdf
