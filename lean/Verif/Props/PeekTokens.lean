/-
  C06: the tokens that are read one after the other, with any peeks in between.
-/
import Verif.Props.Peek
import Verif.Lemmas.Skip

namespace VPdf

/-- The first `n` tokens of a text: each one is read from what the one before has left.  An error is the last of them. -/
def Spec.tokensOf (dict : List Bytes) : Nat → Bytes → List (Res Token)
  | 0, _ => []
  | n + 1, s =>
    match readToken dict s with
    | .ok (t, r) => .ok t :: Spec.tokensOf dict n r
    | .error f => [.error f]

/-- The results of the reads among the results of a run, up to the first error. -/
def Spec.readResults : List (TokOp × Option (Res Token)) → List (Res Token)
  | [] => []
  | (.read, some (.ok t)) :: rest => .ok t :: Spec.readResults rest
  | (.read, some (.error f)) :: _ => [.error f]
  | _ :: rest => Spec.readResults rest

namespace PeekTokens

/-- What is left to be read at a position. -/
def leftAt (whole : Bytes) : Pos → Bytes
  | none => []
  | some n => whole.drop n

theorem suffix_drop {r s : Bytes} (h : r <:+ s) : s.drop (s.length - r.length) = r := by
  obtain ⟨p, rfl⟩ := h
  simp

theorem readToken_nil (dict : List Bytes) : readToken dict [] = .ok (⟨.endOfInput, []⟩, []) := rfl

/-- Reading at a position is reading from what is left there, and leaves what the token leaves. -/
theorem readAt_left (dict : List Bytes) (whole : Bytes) (p : Pos) :
    (∀ t r, readToken dict (leftAt whole p) = .ok (t, r) →
      (readAt dict whole p).1 = .ok t ∧ leftAt whole (readAt dict whole p).2 = r) ∧
    (∀ f, readToken dict (leftAt whole p) = .error f → (readAt dict whole p).1 = .error f) := by
  cases p with
  | none =>
    refine ⟨fun t r h => ?_, fun f h => ?_⟩
    · rw [leftAt, readToken_nil] at h
      cases h
      exact ⟨rfl, rfl⟩
    · rw [leftAt, readToken_nil] at h
      cases h
  | some n =>
    refine ⟨fun t r h => ?_, fun f h => ?_⟩
    · rw [leftAt] at h
      have hs : r <:+ whole := (readToken_progress' dict _ t r h).1.trans (List.drop_suffix n whole)
      simp only [readAt, h]
      refine ⟨trivial, ?_⟩
      split
      · next he =>
        simp only [Bool.and_eq_true, List.isEmpty_iff] at he
        exact he.1.symm
      · exact suffix_drop hs
    · rw [leftAt] at h
      simp only [readAt, h]

theorem run_left (dict : List Bytes) (whole : Bytes) : ∀ (ops : List TokOp) (p : Pos),
    (∀ o ∈ ops, o = .read) →
    Spec.readResults (Spec.plainRun (readAt dict whole) p ops).1 = Spec.tokensOf dict ops.length (leftAt whole p) := by
  intro ops
  induction ops with
  | nil => intro p _; rfl
  | cons o os ih =>
    intro p h
    have ho := h o List.mem_cons_self
    subst ho
    obtain ⟨h1, h2⟩ := readAt_left dict whole p
    simp only [Spec.plainRun, Spec.plainStep, List.length_cons, Spec.tokensOf]
    cases hr : readToken dict (leftAt whole p) with
    | ok x =>
      obtain ⟨t, r⟩ := x
      obtain ⟨e1, e2⟩ := h1 t r hr
      rw [e1]
      simp only [Spec.readResults]
      rw [ih _ (fun o ho => h o (List.mem_cons_of_mem _ ho)), e2]
    | error f =>
      rw [h2 f hr]
      rfl

theorem results_without (l : List (TokOp × Option (Res Token))) :
    Spec.readResults (Spec.withoutPeeks l) = Spec.readResults l := by
  induction l with
  | nil => rfl
  | cons x l ih =>
    obtain ⟨o, r⟩ := x
    cases o with
    | peek =>
      have e : Spec.withoutPeeks ((.peek, r) :: l) = Spec.withoutPeeks l := by simp [Spec.withoutPeeks]
      rw [e, ih]
      cases r <;> rfl
    | read =>
      have e : Spec.withoutPeeks ((.read, r) :: l) = (.read, r) :: Spec.withoutPeeks l := by simp [Spec.withoutPeeks]
      rw [e]
      cases r with
      | none => exact ih
      | some r =>
        cases r with
        | ok t => simp only [Spec.readResults, ih]
        | error f => rfl
    | seek n =>
      have e : Spec.withoutPeeks ((.seek n, r) :: l) = (.seek n, r) :: Spec.withoutPeeks l := by simp [Spec.withoutPeeks]
      rw [e]
      cases r <;> exact ih

end PeekTokens

/-- **C06**, partial (peeks that fail are excluded, see `C06_failing_peek_counterexample`): a program that reads tokens and peeks
as it likes gets, with its reads, the tokens of the text one after the other, each one from what the one before has left; behind
the last one it gets the end of the input, again and again. -/
theorem C06_tokens_partial (dict : List Bytes) (whole : Bytes) (start : Nat) (ops : List TokOp)
    (hops : ∀ n, TokOp.seek n ∉ ops) (h : Spec.noPeekFails (tokRun dict whole ⟨some start, []⟩ ops).1) :
    Spec.readResults (tokRun dict whole ⟨some start, []⟩ ops).1 =
      Spec.tokensOf dict (ops.filter (· = .read)).length (whole.drop start) := by
  obtain ⟨h1, -⟩ := C06_peeks_are_transparent_partial dict whole start ops h
  have e : ops.filter (· ≠ .peek) = ops.filter (· = .read) := by
    apply List.filter_congr
    intro o ho
    cases o with
    | read => rfl
    | peek => rfl
    | seek n => exact absurd ho (hops n)
  rw [← PeekTokens.results_without, h1, (C06_cache_unobservable dict whole start _).1, e,
    PeekTokens.run_left dict whole _ (some start) (fun o ho => by simpa using (List.mem_filter.1 ho).2)]
  rfl

example : Spec.readResults (tokRun parserKeywords (b! "12 /A]") ⟨some 0, []⟩
    [.peek, .read, .read, .peek, .peek, .read, .read, .peek, .read]).1 =
    [.ok ⟨.integer, b! "12"⟩, .ok ⟨.name, b! "A"⟩, .ok ⟨.arrayEnd, []⟩, .ok ⟨.endOfInput, []⟩, .ok ⟨.endOfInput, []⟩] := by rfl

end VPdf
