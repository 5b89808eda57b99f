import Verif.Spec.Registry
/-
  Lemmas about the table of documents (C97).
-/
namespace VPdf
open Spec

theorem setAt_same {α : Type} (f : Nat → Option α) (a : Nat) (v : Option α) : setAt f a v a = v := if_pos rfl

theorem setAt_ne {α : Type} (f : Nat → Option α) {a b : Nat} (v : Option α) (h : b ≠ a) : setAt f a v b = f b := if_neg h

/-- What holds between the calls. -/
structure RegInv (w : Registry) : Prop where
  doc : ∀ d x, w.docs d = some x → 0 < x.handles ∧ d < w.next ∧ w.table x.file = some (some d) ∧
    ∃ f, w.files x.file = some f ∧ 0 < f.uses
  tab : ∀ a d, w.table a = some (some d) → d < w.next
  own : ∀ a d x, w.table a = some (some d) → w.docs d = some x → x.file = a

/-- The entry of the address leads to no document. -/
def DeadAt (w : Registry) (a : Nat) : Prop := w.table a ≠ none ∧ ∀ d, w.table a = some (some d) → w.docs d = none

/-- The handles of a document. -/
def handlesNow (w : Registry) (d : Nat) : Nat :=
  match w.docs d with
  | some x => x.handles
  | none => 0

/-- What one call does. -/
structure StepOk (w : Registry) (c : DocCall) (w' : Registry) (o : DocOutcome) : Prop where
  inv : RegInv w'
  next : w.next ≤ w'.next
  old : ∀ d y, d < w.next → w'.docs d = some y → ∃ x, w.docs d = some x ∧ x.file = y.file
  handles : ∀ d, handlesNow w' d = if (asksFor c).isSome ∧ o = .document d then handlesNow w d + 1
      else if c = .releaseDocument d ∧ o = .done then handlesNow w d - 1 else handlesNow w d
  given : ∀ a d, asksFor c = some a → o = .document d → ∃ x, w'.docs d = some x ∧ x.file = a
  dead : ∀ a, DeadAt w a → DeadAt w' a ∧ (asksFor c = some a ∨ c = .follow a → ∀ d, o ≠ .document d)
  clean : ∀ a, ¬ DeadAt w a → ¬ (asksFor c = some a ∧ o = .failed) → ¬ (c = .follow a ∧ o = .noDocument) → ¬ DeadAt w' a

theorem start_inv : RegInv .start :=
  ⟨(fun _ _ h => by cases h), (fun _ _ h => by cases h), (fun _ _ _ h => by cases h)⟩

theorem inv_next_none {w : Registry} (h : RegInv w) : w.docs w.next = none := by
  cases e : w.docs w.next with
  | none => rfl
  | some x => exact absurd (h.doc _ _ e).2.1 (Nat.lt_irrefl _)

/-- Only the files changed, and those of documents stay in use. -/
theorem files_only {w : Registry} {files : Nat → Option FileObj} (h : RegInv w)
    (hf : ∀ a f, w.files a = some f → 0 < f.uses → ∃ f', files a = some f' ∧ 0 < f'.uses) : RegInv { w with files := files } :=
  ⟨fun d x e => by
    obtain ⟨h1, h2, h3, f, h4, h5⟩ := h.doc d x e
    exact ⟨h1, h2, h3, hf _ f h4 h5⟩, h.tab, h.own⟩

theorem openFile_inv {w : Registry} {a : Nat} (r : Bool) (h : RegInv w) (ha : w.files a = none) : RegInv (openFileAt w a r) := by
  refine files_only h fun b f hb hu => ?_
  have : b ≠ a := fun e => by rw [e, ha] at hb; cases hb
  exact ⟨f, by rw [setAt_ne _ _ this, hb], hu⟩

theorem releaseFile_inv {w : Registry} (a : Nat) (h : RegInv w) :
    RegInv (releaseFileAt w a).1 ∧ (releaseFileAt w a).1.docs = w.docs ∧ (releaseFileAt w a).1.table = w.table ∧
      (releaseFileAt w a).1.next = w.next := by
  unfold releaseFileAt
  split
  · rename_i hh u r e
    refine ⟨files_only h fun b f hb hu => ?_, rfl, rfl, rfl⟩
    by_cases hba : b = a
    · subst hba
      rw [e] at hb
      cases hb
      refine ⟨⟨hh, u, r⟩, ?_, hu⟩
      show setAt w.files b (settleFile ⟨hh, u, r⟩) b = _
      rw [setAt_same]
      exact if_neg fun q => absurd q.2 (Nat.pos_iff_ne_zero.mp hu)
    · exact ⟨f, by rw [setAt_ne _ _ hba, hb], hu⟩
  · exact ⟨h, rfl, rfl, rfl⟩

/-- A call that changes nothing but the files. -/
theorem step_same {w w' : Registry} {c : DocCall} {o : DocOutcome} (h : RegInv w') (hd : w'.docs = w.docs) (ht : w'.table = w.table)
    (hn : w'.next = w.next) (ho : ∀ d, (asksFor c).isSome → o ≠ .document d) (hr : ∀ d, c = .releaseDocument d → o ≠ .done)
    (hl : ∀ a d, c = .follow a → DeadAt w a → o ≠ .document d) : StepOk w c w' o where
  inv := h
  next := by rw [hn]; exact Nat.le_refl _
  old := fun d y _ e => ⟨y, by rw [← hd]; exact e, rfl⟩
  handles := fun d => by
    rw [if_neg (fun x => ho d x.1 x.2), if_neg (fun x => hr d x.1 x.2)]
    unfold handlesNow; rw [hd]
  given := fun a d e e' => absurd e' (ho d (by rw [e]; rfl))
  dead := fun a e => ⟨by unfold DeadAt; rw [hd, ht]; exact e, fun x d => by
    rcases x with x | x
    · exact ho d (by rw [x]; rfl)
    · exact hl a d x e⟩
  clean := fun a e _ _ => by unfold DeadAt; rw [hd, ht]; exact e

/-- What a request for a document does, before the client gives up a file. -/
structure AskOk (w : Registry) (a : Nat) (w' : Registry) (o : DocOutcome) : Prop where
  inv : RegInv w'
  next : w.next ≤ w'.next
  old : ∀ d y, d < w.next → w'.docs d = some y → ∃ x, w.docs d = some x ∧ x.file = y.file
  handles : ∀ d, handlesNow w' d = if o = .document d then handlesNow w d + 1 else handlesNow w d
  given : ∀ d, o = .document d → ∃ x, w'.docs d = some x ∧ x.file = a
  dead : ∀ b, DeadAt w b → DeadAt w' b ∧ (b = a → ∀ d, o ≠ .document d)
  clean : ∀ b, ¬ DeadAt w b → ¬ (b = a ∧ o = .failed) → ¬ DeadAt w' b

theorem ask_same {w : Registry} (a : Nat) {o : DocOutcome} (h : RegInv w) (ho : ∀ d, o ≠ .document d) : AskOk w a w o where
  inv := h
  next := Nat.le_refl _
  old := fun d y _ e => ⟨y, e, rfl⟩
  handles := fun d => by rw [if_neg (ho d)]
  given := fun d e => absurd e (ho d)
  dead := fun b e => ⟨e, fun _ => ho⟩
  clean := fun b e _ => e

theorem newDocument_ask {w : Registry} {a : Nat} {f : FileObj} (h : RegInv w) (hf : w.files a = some f) (ht : w.table a = none) :
    AskOk w a (newDocument w a f).1 (newDocument w a f).2 := by
  have hnx := inv_next_none h
  have hna : ∀ {d x}, w.docs d = some x → x.file ≠ a := fun {d x} e e' => by
    have := (h.doc d x e).2.2.1
    rw [e', ht] at this; cases this
  unfold newDocument
  by_cases hr : f.readable = true
  · rw [if_pos hr]
    have hdne : ∀ {d}, d < w.next → d ≠ w.next := fun {d} x => Nat.ne_of_lt x
    constructor
    · refine ⟨fun d x e => ?_, fun b d e => ?_, fun b d x e e' => ?_⟩
      · dsimp only at e ⊢
        by_cases hd : d = w.next
        · subst hd
          rw [setAt_same] at e
          cases e
          exact ⟨Nat.one_pos, Nat.lt_succ_self _, setAt_same _ _ _, _, setAt_same _ _ _, Nat.succ_pos _⟩
        · rw [setAt_ne _ _ hd] at e
          obtain ⟨h1, h2, h3, g, h4, h5⟩ := h.doc d x e
          exact ⟨h1, Nat.lt_succ_of_lt h2, by rw [setAt_ne _ _ (hna e)]; exact h3, g, by rw [setAt_ne _ _ (hna e)]; exact h4, h5⟩
      · dsimp only at e ⊢
        by_cases hb : b = a
        · rw [hb, setAt_same] at e
          cases e
          exact Nat.lt_succ_self _
        · rw [setAt_ne _ _ hb] at e
          exact Nat.lt_succ_of_lt (h.tab _ _ e)
      · dsimp only at e e'
        by_cases hb : b = a
        · subst hb
          rw [setAt_same] at e
          cases e
          rw [setAt_same] at e'
          cases e'
          rfl
        · rw [setAt_ne _ _ hb] at e
          rw [setAt_ne _ _ (hdne (h.tab _ _ e))] at e'
          exact h.own _ _ _ e e'
    · exact Nat.le_succ _
    · intro d y hd e
      dsimp only at e
      rw [setAt_ne _ _ (hdne hd)] at e
      exact ⟨y, e, rfl⟩
    · intro d
      unfold handlesNow
      dsimp only
      by_cases hd : d = w.next
      · subst hd
        rw [setAt_same, if_pos rfl, hnx]
      · rw [setAt_ne _ _ hd, if_neg (fun e => hd (by cases e; rfl))]
    · intro d e
      cases e
      exact ⟨_, setAt_same _ _ _, rfl⟩
    · intro b e
      have hb : b ≠ a := fun x => e.1 (by rw [x]; exact ht)
      refine ⟨⟨?_, fun d hd => ?_⟩, fun x => absurd x hb⟩
      · dsimp only; rw [setAt_ne _ _ hb]; exact e.1
      · dsimp only at hd ⊢
        rw [setAt_ne _ _ hb] at hd
        rw [setAt_ne _ _ (hdne (h.tab _ _ hd))]
        exact e.2 d hd
    · intro b e _ e'
      by_cases hb : b = a
      · subst hb
        have := e'.2 w.next (setAt_same _ _ _)
        dsimp only at this
        rw [setAt_same] at this
        cases this
      · refine e ⟨?_, fun d hd => ?_⟩
        · have := e'.1
          dsimp only at this
          rwa [setAt_ne _ _ hb] at this
        · have := e'.2 d (by dsimp only; rw [setAt_ne _ _ hb]; exact hd)
          dsimp only at this
          rwa [setAt_ne _ _ (hdne (h.tab _ _ hd))] at this
  · rw [if_neg hr]
    constructor
    · refine ⟨fun d x e => ?_, fun b d e => ?_, fun b d x e e' => ?_⟩
      · obtain ⟨h1, h2, h3, g⟩ := h.doc d x e
        exact ⟨h1, Nat.lt_succ_of_lt h2, by dsimp only; rw [setAt_ne _ _ (hna e)]; exact h3, g⟩
      · dsimp only at e ⊢
        by_cases hb : b = a
        · rw [hb, setAt_same] at e
          cases e
          exact Nat.lt_succ_self _
        · rw [setAt_ne _ _ hb] at e
          exact Nat.lt_succ_of_lt (h.tab _ _ e)
      · dsimp only at e e'
        by_cases hb : b = a
        · subst hb
          rw [setAt_same] at e
          cases e
          rw [hnx] at e'
          cases e'
        · rw [setAt_ne _ _ hb] at e
          exact h.own _ _ _ e e'
    · exact Nat.le_succ _
    · exact fun d y _ e => ⟨y, e, rfl⟩
    · exact fun d => by rw [if_neg (fun e => by cases e)]; rfl
    · exact fun d e => by cases e
    · intro b e
      have hb : b ≠ a := fun x => e.1 (by rw [x]; exact ht)
      refine ⟨⟨?_, fun d hd => ?_⟩, fun x => absurd x hb⟩
      · dsimp only; rw [setAt_ne _ _ hb]; exact e.1
      · dsimp only at hd ⊢
        rw [setAt_ne _ _ hb] at hd
        exact e.2 d hd
    · intro b e hx e'
      by_cases hb : b = a
      · exact hx ⟨hb, rfl⟩
      · refine e ⟨?_, fun d hd => ?_⟩
        · have := e'.1
          dsimp only at this
          rwa [setAt_ne _ _ hb] at this
        · exact e'.2 d (by dsimp only; rw [setAt_ne _ _ hb]; exact hd)

theorem openDocument_ask {w : Registry} (a : Nat) (h : RegInv w) :
    AskOk w a (openDocumentAt w a).1 (openDocumentAt w a).2 := by
  unfold openDocumentAt
  split
  · exact ask_same a h (fun d => by simp)
  · rename_i f hf
    split
    · rename_i ht
      exact newDocument_ask h hf ht
    · exact ask_same a h (fun d => by simp)
    · rename_i d ht
      split
      · rename_i x hx
        have hfile := h.own _ _ _ ht hx
        constructor
        · refine ⟨fun e y he => ?_, h.tab, fun b e y he he' => ?_⟩
          · dsimp only at he
            by_cases hd : e = d
            · subst hd
              rw [setAt_same] at he
              cases he
              obtain ⟨_, h2, h3, h4⟩ := h.doc _ _ hx
              exact ⟨Nat.succ_pos _, h2, h3, h4⟩
            · rw [setAt_ne _ _ hd] at he
              exact h.doc _ _ he
          · dsimp only at he he'
            by_cases hd : e = d
            · subst hd
              rw [setAt_same] at he'
              cases he'
              exact h.own _ _ x he hx
            · rw [setAt_ne _ _ hd] at he'
              exact h.own _ _ _ he he'
        · exact Nat.le_refl _
        · intro e y _ he
          dsimp only at he
          by_cases hd : e = d
          · subst hd
            rw [setAt_same] at he
            cases he
            exact ⟨x, hx, rfl⟩
          · rw [setAt_ne _ _ hd] at he
            exact ⟨y, he, rfl⟩
        · intro e
          unfold handlesNow
          dsimp only
          by_cases hd : e = d
          · subst hd
            rw [setAt_same, if_pos rfl, hx]
          · rw [setAt_ne _ _ hd, if_neg (fun q => hd (by cases q; rfl))]
        · intro e he
          cases he
          exact ⟨_, setAt_same _ _ _, hfile⟩
        · intro b e
          have hb : b ≠ a := fun q => by
            have := e.2 d (by rw [q]; exact ht)
            rw [hx] at this; cases this
          refine ⟨⟨e.1, fun d' hd' => ?_⟩, fun q => absurd q hb⟩
          dsimp only
          have : d' ≠ d := fun q => by
            subst q
            exact hb ((h.own _ _ _ hd' hx).symm.trans hfile)
          rw [setAt_ne _ _ this]
          exact e.2 d' hd'
        · intro b e _ e'
          refine e ⟨e'.1, fun d' hd' => ?_⟩
          have h1 := e'.2 d' hd'
          dsimp only at h1
          by_cases hd : d' = d
          · subst hd
            rw [setAt_same] at h1; cases h1
          · rwa [setAt_ne _ _ hd] at h1
      · exact ask_same a h (fun d => by simp)

theorem createDocument_ask {w : Registry} (a : Nat) (h : RegInv w) :
    AskOk w a (createDocumentAt w a).1 (createDocumentAt w a).2 := by
  unfold createDocumentAt
  split
  · exact ask_same a h (fun d => by simp)
  · rename_i f hf
    split
    · rename_i ht
      exact newDocument_ask h hf ht
    · exact ask_same a h (fun d => by simp)

/-- A request between the opening and the giving up of a file. -/
theorem ask_step {w w1 w2 w' : Registry} {a : Nat} {c : DocCall} {o : DocOutcome} (hc : asksFor c = some a)
    (h1 : w1.docs = w.docs ∧ w1.table = w.table ∧ w1.next = w.next) (h : AskOk w1 a w2 o) (hi : RegInv w')
    (h2 : w'.docs = w2.docs ∧ w'.table = w2.table ∧ w'.next = w2.next) : StepOk w c w' o where
  inv := hi
  next := by rw [h2.2.2, ← h1.2.2]; exact h.next
  old := fun d y hd e => by rw [← h1.1]; rw [h2.1] at e; rw [← h1.2.2] at hd; exact h.old d y hd e
  handles := fun d => by
    have := h.handles d
    unfold handlesNow at this ⊢
    rw [h2.1, this, h1.1]
    by_cases ho : o = .document d
    · rw [if_pos ho, if_pos ⟨by rw [hc]; rfl, ho⟩]
    · rw [if_neg ho, if_neg (fun q => ho q.2), if_neg]
      rintro ⟨q, _⟩
      rw [q] at hc; cases hc
  given := fun b d hb ho => by
    rw [hc] at hb; cases hb
    rw [h2.1]
    exact h.given d ho
  dead := fun b e => by
    have := h.dead b (by unfold DeadAt; rw [h1.1, h1.2.1]; exact e)
    refine ⟨by unfold DeadAt; rw [h2.1, h2.2.1]; exact this.1, fun q => this.2 ?_⟩
    rcases q with q | q
    · rw [hc] at q; cases q; rfl
    · rw [q] at hc; cases hc
  clean := fun b e hx _ => by
    have := h.clean b (by unfold DeadAt; rw [h1.1, h1.2.1]; exact e) (fun q => hx ⟨by rw [hc, q.1], q.2⟩)
    unfold DeadAt; rw [h2.1, h2.2.1]; exact this

theorem releaseDocument_step {w : Registry} (d : Nat) (h : RegInv w) :
    StepOk w (.releaseDocument d) (releaseDocument w d).1 (releaseDocument w d).2 := by
  have hne : ∀ {b : Nat}, ¬ (DocCall.releaseDocument d = .follow b) := fun {b} e => by cases e
  unfold releaseDocument
  split
  · rename_i a n hx
    constructor
    · refine ⟨fun e y he => ?_, h.tab, fun b e y he he' => ?_⟩
      · dsimp only at he
        by_cases hd : e = d
        · subst hd
          rw [setAt_same] at he
          cases he
          obtain ⟨_, h2, h3, h4⟩ := h.doc _ _ hx
          exact ⟨Nat.succ_pos _, h2, h3, h4⟩
        · rw [setAt_ne _ _ hd] at he
          exact h.doc _ _ he
      · dsimp only at he he'
        by_cases hd : e = d
        · subst hd
          rw [setAt_same] at he'
          cases he'
          exact h.own _ _ (⟨a, n + 2⟩ : DocObj) he hx
        · rw [setAt_ne _ _ hd] at he'
          exact h.own _ _ _ he he'
    · exact Nat.le_refl _
    · intro e y _ he
      dsimp only at he
      by_cases hd : e = d
      · subst hd
        rw [setAt_same] at he
        cases he
        exact ⟨_, hx, rfl⟩
      · rw [setAt_ne _ _ hd] at he
        exact ⟨y, he, rfl⟩
    · intro e
      rw [if_neg (fun q => by cases q.1)]
      unfold handlesNow
      dsimp only
      by_cases hd : e = d
      · subst hd
        rw [setAt_same, if_pos ⟨rfl, rfl⟩, hx]
        rfl
      · rw [setAt_ne _ _ hd, if_neg (fun q => hd (by cases q.1; rfl))]
    · intro b e he; cases he
    · intro b e
      refine ⟨⟨e.1, fun d' hd' => ?_⟩, fun q => ?_⟩
      · dsimp only
        have : d' ≠ d := fun q => by
          subst q
          have := e.2 _ hd'
          rw [hx] at this; cases this
        rw [setAt_ne _ _ this]
        exact e.2 d' hd'
      · rcases q with q | q
        · cases q
        · exact absurd q hne
    · intro b e _ _ e'
      refine e ⟨e'.1, fun d' hd' => ?_⟩
      have h1 := e'.2 d' hd'
      dsimp only at h1
      by_cases hd : d' = d
      · subst hd
        rw [setAt_same] at h1; cases h1
      · rwa [setAt_ne _ _ hd] at h1
  · rename_i a n hn hx
    have hone : n = 1 := by
      have := (h.doc _ _ hx).1
      dsimp only at this
      match n, hn, this with
      | 1, _, _ => rfl
      | k + 2, hn, _ => exact absurd rfl (hn k)
    subst hone
    have hta := (h.doc _ _ hx).2.2.1
    have hoth : ∀ {e : Nat} {y : DocObj}, e ≠ d → w.docs e = some y → y.file ≠ a := fun {e y} he hy q => by
      have h1 := (h.doc _ _ hy).2.2.1
      rw [q, hta] at h1
      cases h1
      exact he rfl
    constructor
    · refine ⟨fun e y he => ?_, fun b e he => ?_, fun b e y he he' => ?_⟩
      · dsimp only at he ⊢
        by_cases hd : e = d
        · subst hd
          rw [setAt_same] at he
          cases he
        · rw [setAt_ne _ _ hd] at he
          obtain ⟨h1, h2, h3, g, h4, h5⟩ := h.doc _ _ he
          have hy := hoth hd he
          refine ⟨h1, h2, by rw [setAt_ne _ _ hy]; exact h3, g, ?_, h5⟩
          cases w.files a with
          | none => exact h4
          | some q => exact (setAt_ne _ _ hy).trans h4
      · dsimp only at he ⊢
        by_cases hb : b = a
        · rw [hb, setAt_same] at he; cases he
        · rw [setAt_ne _ _ hb] at he
          exact h.tab _ _ he
      · dsimp only at he he'
        by_cases hb : b = a
        · rw [hb, setAt_same] at he; cases he
        · rw [setAt_ne _ _ hb] at he
          by_cases hd : e = d
          · subst hd
            rw [setAt_same] at he'; cases he'
          · rw [setAt_ne _ _ hd] at he'
            exact h.own _ _ _ he he'
    · exact Nat.le_refl _
    · intro e y _ he
      dsimp only at he
      by_cases hd : e = d
      · subst hd
        rw [setAt_same] at he
        cases he
      · rw [setAt_ne _ _ hd] at he
        exact ⟨y, he, rfl⟩
    · intro e
      rw [if_neg (fun q => by cases q.1)]
      unfold handlesNow
      dsimp only
      by_cases hd : e = d
      · subst hd
        rw [setAt_same, if_pos ⟨rfl, rfl⟩, hx]
        rfl
      · rw [setAt_ne _ _ hd, if_neg (fun q => hd (by cases q.1; rfl))]
    · intro b e he; cases he
    · intro b e
      have hb : b ≠ a := fun q => by
        have := e.2 d (by rw [q]; exact hta)
        rw [hx] at this; cases this
      refine ⟨⟨?_, fun d' hd' => ?_⟩, fun q => ?_⟩
      · dsimp only; rw [setAt_ne _ _ hb]; exact e.1
      · dsimp only at hd' ⊢
        rw [setAt_ne _ _ hb] at hd'
        by_cases hd : d' = d
        · rw [hd, setAt_same]
        · rw [setAt_ne _ _ hd]; exact e.2 d' hd'
      · rcases q with q | q
        · cases q
        · exact absurd q hne
    · intro b e _ _ e'
      by_cases hb : b = a
      · refine e'.1 ?_
        dsimp only
        rw [hb, setAt_same]
      · refine e ⟨?_, fun d' hd' => ?_⟩
        · have := e'.1
          dsimp only at this
          rwa [setAt_ne _ _ hb] at this
        · have h1 := e'.2 d' (by dsimp only; rw [setAt_ne _ _ hb]; exact hd')
          dsimp only at h1
          by_cases hd : d' = d
          · subst hd
            exact absurd ((h.own _ _ _ hd' hx).symm) hb
          · rwa [setAt_ne _ _ hd] at h1
  · exact step_same h rfl rfl rfl (fun d => by simp) (fun d => by simp) (fun a d => by simp)

theorem follow_step {w : Registry} (a : Nat) (h : RegInv w) : StepOk w (.follow a) (followLink w a).1 (followLink w a).2 := by
  unfold followLink
  split
  · exact step_same h rfl rfl rfl (fun d => by simp) (fun d => by simp) (fun a d => by simp)
  · split
    · rename_i ht
      have hna : ∀ {d x}, w.docs d = some x → x.file ≠ a := fun {d x} e e' => by
        have := (h.doc d x e).2.2.1
        rw [e', ht] at this; cases this
      constructor
      · refine ⟨fun d x e => ?_, fun b d e => ?_, fun b d x e e' => ?_⟩
        · obtain ⟨h1, h2, h3, g⟩ := h.doc d x e
          exact ⟨h1, h2, by dsimp only; rw [setAt_ne _ _ (hna e)]; exact h3, g⟩
        · dsimp only at e ⊢
          by_cases hb : b = a
          · rw [hb, setAt_same] at e
            cases e
          · rw [setAt_ne _ _ hb] at e
            exact h.tab _ _ e
        · dsimp only at e e'
          by_cases hb : b = a
          · rw [hb, setAt_same] at e; cases e
          · rw [setAt_ne _ _ hb] at e
            exact h.own _ _ _ e e'
      · exact Nat.le_refl _
      · exact fun d y _ e => ⟨y, e, rfl⟩
      · intro d
        rw [if_neg (fun q => by cases q.1), if_neg (fun q => by cases q.1)]
        rfl
      · intro b d e; cases e
      · intro b e
        have hb : b ≠ a := fun x => e.1 (by rw [x]; exact ht)
        refine ⟨⟨?_, fun d hd => ?_⟩, fun _ d => by simp⟩
        · dsimp only; rw [setAt_ne _ _ hb]; exact e.1
        · dsimp only at hd ⊢
          rw [setAt_ne _ _ hb] at hd
          exact e.2 d hd
      · intro b e _ hx e'
        by_cases hb : b = a
        · exact hx ⟨by rw [hb], rfl⟩
        · refine e ⟨?_, fun d hd => ?_⟩
          · have := e'.1
            dsimp only at this
            rwa [setAt_ne _ _ hb] at this
          · exact e'.2 d (by dsimp only; rw [setAt_ne _ _ hb]; exact hd)
    · exact step_same h rfl rfl rfl (fun d => by simp) (fun d => by simp) (fun a d => by simp)
    · rename_i d ht
      refine step_same h rfl rfl rfl (fun d hd => by cases hd) (fun d hd => by cases hd) fun b d' hb hdead => ?_
      cases hb
      rw [hdead.2 d ht]
      simp

theorem docCall_step {w : Registry} (c : DocCall) (h : RegInv w) : StepOk w c (docCall w c).1 (docCall w c).2 := by
  have hsame : ∀ c, (∀ d, c ≠ .releaseDocument d) → StepOk w c w .misuse := fun c hc =>
    step_same h rfl rfl rfl (fun d _ => by simp) (fun d e => absurd e (hc d)) (fun a d _ _ => by simp)
  cases c with
  | openFile a r =>
    simp only [docCall]
    by_cases hf : (w.files a).isSome
    · rw [if_pos hf]; exact hsame _ (fun d => by simp)
    · rw [if_neg hf]
      have := openFile_inv r h (by simpa using hf)
      exact step_same this rfl rfl rfl (fun d => by simp) (fun d => by simp) (fun a d => by simp)
  | releaseFile a =>
    obtain ⟨h1, h2, h3, h4⟩ := releaseFile_inv a h
    simp only [docCall]
    refine step_same h1 h2 h3 h4 (fun d hd => by cases hd) (fun d => by simp) (fun a d => by simp)
  | openDocument a => exact ask_step rfl ⟨rfl, rfl, rfl⟩ (openDocument_ask a h) (openDocument_ask a h).inv ⟨rfl, rfl, rfl⟩
  | openPath a r =>
    simp only [docCall]
    by_cases hf : (w.files a).isSome
    · rw [if_pos hf]; exact hsame _ (fun d => by simp)
    · rw [if_neg hf]
      have hi := openFile_inv r h (by simpa using hf)
      have hk := openDocument_ask a hi
      obtain ⟨h1, h2, h3, h4⟩ := releaseFile_inv a hk.inv
      exact ask_step (w := w) (w1 := openFileAt w a _) rfl ⟨rfl, rfl, rfl⟩ hk h1 ⟨h2, h3, h4⟩
  | createPath a =>
    simp only [docCall]
    by_cases hf : (w.files a).isSome
    · rw [if_pos hf]; exact hsame _ (fun d => by simp)
    · rw [if_neg hf]
      have hi := openFile_inv true h (by simpa using hf)
      have hk := createDocument_ask a hi
      obtain ⟨h1, h2, h3, h4⟩ := releaseFile_inv a hk.inv
      exact ask_step (w := w) (w1 := openFileAt w a _) rfl ⟨rfl, rfl, rfl⟩ hk h1 ⟨h2, h3, h4⟩
  | releaseDocument d => exact releaseDocument_step d h
  | follow a => exact follow_step a h

theorem docCalls_append (w : Registry) (cs cs' : List DocCall) :
    docCalls w (cs ++ cs') = ((docCalls (docCalls w cs).1 cs').1, (docCalls w cs).2 ++ (docCalls (docCalls w cs).1 cs').2) := by
  induction cs generalizing w with
  | nil => rfl
  | cons c cs ih =>
    simp only [List.cons_append, docCalls, ih]

theorem docCalls_inv {w : Registry} (cs : List DocCall) (h : RegInv w) : RegInv (docCalls w cs).1 := by
  induction cs generalizing w with
  | nil => exact h
  | cons c cs ih => exact ih (docCall_step c h).inv

theorem handles_track {w : Registry} (cs : List DocCall) (h : RegInv w) (d : Nat) :
    handlesOf d (handlesNow w d) (docCalls w cs).2 = handlesNow (docCalls w cs).1 d := by
  induction cs generalizing w with
  | nil => rfl
  | cons c cs ih =>
    have hs := docCall_step c h
    show handlesOf d (if (asksFor c).isSome ∧ (docCall w c).2 = .document d then handlesNow w d + 1
      else if c = .releaseDocument d ∧ (docCall w c).2 = .done then handlesNow w d - 1 else handlesNow w d) _ = _
    rw [← hs.handles d]
    exact ih hs.inv

/-- A document that was known keeps its file. -/
theorem keeps_file {w : Registry} (cs : List DocCall) (h : RegInv w) {a d : Nat} (hd : d < w.next)
    (hx : ∀ x, w.docs d = some x → x.file = a) : ∀ x, (docCalls w cs).1.docs d = some x → x.file = a := by
  induction cs generalizing w with
  | nil => exact hx
  | cons c cs ih =>
    have hs := docCall_step c h
    refine ih hs.inv (Nat.lt_of_lt_of_le hd hs.next) fun x e => ?_
    obtain ⟨y, h1, h2⟩ := hs.old d x hd e
    rw [← h2]; exact hx y h1

theorem given_file {w : Registry} (cs : List DocCall) (h : RegInv w) {a d : Nat} (hg : GivenFor a d (docCalls w cs).2) :
    ∀ x, (docCalls w cs).1.docs d = some x → x.file = a := by
  obtain ⟨c, hc, hg⟩ := hg
  induction cs generalizing w with
  | nil => cases hg
  | cons c' cs ih =>
    have hs := docCall_step c' h
    rcases List.mem_cons.mp hg with e | e
    · injection e with e1 e2
      subst e1
      obtain ⟨y, h1, h2⟩ := hs.given a d hc e2.symm
      exact keeps_file cs hs.inv (hs.inv.doc _ _ h1).2.1 fun x e => by rw [h1] at e; cases e; exact h2
    · exact ih hs.inv e

theorem dead_stays {w : Registry} (cs : List DocCall) (h : RegInv w) {a : Nat} (hd : DeadAt w a) :
    DeadAt (docCalls w cs).1 a ∧ NeverAgain a (docCalls w cs).2 := by
  induction cs generalizing w with
  | nil => exact ⟨hd, fun c d _ e => by cases e⟩
  | cons c cs ih =>
    have hs := docCall_step c h
    obtain ⟨h1, h2⟩ := hs.dead a hd
    obtain ⟨h3, h4⟩ := ih hs.inv h1
    refine ⟨h3, fun c' d hc e => ?_⟩
    rcases List.mem_cons.mp e with e | e
    · injection e with e1 e2
      subst e1
      exact h2 hc d e2.symm
    · exact h4 c' d hc e

theorem clean_stays {w : Registry} (cs : List DocCall) (h : RegInv w) {a : Nat} (hd : ¬ DeadAt w a)
    (hu : Undisturbed a (docCalls w cs).2) : ¬ DeadAt (docCalls w cs).1 a := by
  induction cs generalizing w with
  | nil => exact hd
  | cons c cs ih =>
    have hs := docCall_step c h
    refine ih hs.inv (hs.clean a hd (fun q => ?_) (fun q => ?_)) ⟨fun c' hc' e => hu.1 c' hc' (List.mem_cons_of_mem _ e),
      fun e => hu.2 (List.mem_cons_of_mem _ e)⟩
    · refine hu.1 c q.1 ?_
      rw [← q.2]
      exact List.mem_cons_self
    · refine hu.2 ?_
      rw [← q.1, ← q.2]
      exact List.mem_cons_self

/-- A request that fails leaves an entry that leads nowhere. -/
theorem failed_dead {w : Registry} {c : DocCall} {a : Nat} (h : RegInv w) (hc : asksFor c = some a) (ho : (docCall w c).2 = .failed) :
    DeadAt (docCall w c).1 a := by
  have hnew : ∀ {v : Registry} {f : FileObj}, RegInv v → (newDocument v a f).2 = .failed → DeadAt (newDocument v a f).1 a := by
    intro v f hv e
    have hnx := inv_next_none hv
    unfold newDocument at e ⊢
    by_cases hr : f.readable = true
    · rw [if_pos hr] at e; cases e
    · rw [if_neg hr]
      refine ⟨by dsimp only; rw [setAt_same]; simp, fun d hd => ?_⟩
      dsimp only at hd ⊢
      rw [setAt_same] at hd
      cases hd
      exact hnx
  have hopen : ∀ {v : Registry}, RegInv v → (openDocumentAt v a).2 = .failed → DeadAt (openDocumentAt v a).1 a := by
    intro v hv e
    unfold openDocumentAt at e ⊢
    cases hf : v.files a with
    | none => rw [hf] at e; cases e
    | some f =>
      rw [hf] at e
      dsimp only at e ⊢
      cases ht : v.table a with
      | none => rw [ht] at e; exact hnew hv e
      | some t =>
        rw [ht] at e
        cases t with
        | none => exact ⟨by dsimp only; rw [ht]; simp, fun d hd => by dsimp only at hd; rw [ht] at hd; cases hd⟩
        | some d =>
          dsimp only at e ⊢
          cases hd : v.docs d with
          | some x => rw [hd] at e; cases e
          | none => exact ⟨by dsimp only; rw [ht]; simp, fun d' hd' => by dsimp only at hd' ⊢; rw [ht] at hd'; cases hd'; exact hd⟩
  have hrel : ∀ {v : Registry}, RegInv v → DeadAt v a → DeadAt (releaseFileAt v a).1 a := by
    intro v hv e
    obtain ⟨_, h2, h3, _⟩ := releaseFile_inv a hv
    unfold DeadAt
    rw [h2, h3]
    exact e
  cases c with
  | openFile b r => cases hc
  | releaseFile b => cases hc
  | openDocument b => cases hc; exact hopen h ho
  | openPath b r =>
    cases hc
    simp only [docCall] at ho ⊢
    by_cases hf : (w.files a).isSome
    · rw [if_pos hf] at ho; cases ho
    · rw [if_neg hf] at ho ⊢
      have hi := openFile_inv r h (by simpa using hf)
      exact hrel (openDocument_ask a hi).inv (hopen hi ho)
  | createPath b =>
    cases hc
    simp only [docCall] at ho ⊢
    by_cases hf : (w.files a).isSome
    · rw [if_pos hf] at ho; cases ho
    · rw [if_neg hf] at ho ⊢
      have hi := openFile_inv true h (by simpa using hf)
      refine hrel (createDocument_ask a hi).inv ?_
      change (createDocumentAt _ a).2 = .failed at ho
      have hfile : (openFileAt w a true).files a = some ⟨1, 0, true⟩ := setAt_same _ _ _
      unfold createDocumentAt at ho ⊢
      rw [hfile] at ho ⊢
      dsimp only at ho ⊢
      cases ht : (openFileAt w a true).table a with
      | none => rw [ht] at ho; exact hnew hi ho
      | some t =>
        refine ⟨by dsimp only; rw [ht]; simp, fun d hd => ?_⟩
        dsimp only at hd ⊢
        cases hx : w.docs d with
        | none => exact hx
        | some x =>
          obtain ⟨_, _, _, g, h4, _⟩ := h.doc _ _ hx
          rw [h.own a d x hd hx] at h4
          rw [h4] at hf
          exact absurd rfl hf
  | releaseDocument d => cases hc
  | follow b => cases hc

/-- Files exist as long as somebody has them. -/
def FilesOk (w : Registry) : Prop :=
  ∀ a f, w.files a = some f → (0 < f.handles ∨ 0 < f.uses) ∧ f.uses ≤ 1 ∧ (0 < f.uses → ∃ d x, w.docs d = some x ∧ x.file = a)

theorem settle_some {g f : FileObj} (h : settleFile g = some f) : f = g ∧ (0 < g.handles ∨ 0 < g.uses) := by
  unfold settleFile at h
  split at h
  · cases h
  · rename_i hn
    cases h
    refine ⟨rfl, ?_⟩
    omega

theorem openFile_files {w : Registry} (a : Nat) (r : Bool) (h : FilesOk w) : FilesOk (openFileAt w a r) := by
  intro b f hb
  change setAt w.files a _ b = some f at hb
  by_cases hba : b = a
  · rw [hba, setAt_same] at hb
    cases hb
    exact ⟨.inl Nat.one_pos, Nat.zero_le _, fun h => absurd h (Nat.lt_irrefl _)⟩
  · rw [setAt_ne _ _ hba] at hb
    exact h b f hb

theorem releaseFile_files {w : Registry} (a : Nat) (h : FilesOk w) : FilesOk (releaseFileAt w a).1 := by
  unfold releaseFileAt
  split
  · rename_i hh u r e
    intro b f hb
    change setAt w.files a _ b = some f at hb
    by_cases hba : b = a
    · rw [hba, setAt_same] at hb
      obtain ⟨rfl, h1⟩ := settle_some hb
      obtain ⟨_, h2, h3⟩ := h a _ e
      rw [hba]
      exact ⟨h1, h2, h3⟩
    · rw [setAt_ne _ _ hba] at hb
      exact h b f hb
  · exact h

theorem newDocument_files {w : Registry} {a : Nat} {f : FileObj} (hi : RegInv w) (h : FilesOk w) (hf : w.files a = some f)
    (ht : w.table a = none) : FilesOk (newDocument w a f).1 := by
  unfold newDocument
  by_cases hr : f.readable = true
  · rw [if_pos hr]
    intro b g hb
    change setAt w.files a _ b = some g at hb
    by_cases hba : b = a
    · rw [hba, setAt_same] at hb
      cases hb
      have hu : f.uses = 0 := by
        obtain ⟨_, _, h3⟩ := h a f hf
        by_cases hu : 0 < f.uses
        · obtain ⟨d, x, hx, hxa⟩ := h3 hu
          have := (hi.doc d x hx).2.2.1
          rw [hxa, ht] at this
          cases this
        · omega
      exact ⟨.inr (Nat.succ_pos _), by dsimp only; omega, fun _ => ⟨w.next, ⟨a, 1⟩, setAt_same _ _ _, hba.symm⟩⟩
    · rw [setAt_ne _ _ hba] at hb
      obtain ⟨h1, h2, h3⟩ := h b g hb
      refine ⟨h1, h2, fun hu => ?_⟩
      obtain ⟨d, x, hx, hxa⟩ := h3 hu
      exact ⟨d, x, by rw [← hx]; exact setAt_ne _ _ (Nat.ne_of_lt (hi.doc d x hx).2.1), hxa⟩
  · rw [if_neg hr]
    exact h

theorem openDocument_files {w : Registry} (a : Nat) (hi : RegInv w) (h : FilesOk w) : FilesOk (openDocumentAt w a).1 := by
  unfold openDocumentAt
  split
  · exact h
  · rename_i f hf
    split
    · rename_i ht
      exact newDocument_files hi h hf ht
    · exact h
    · rename_i d ht
      split
      · rename_i x hx
        intro b g hb
        obtain ⟨h1, h2, h3⟩ := h b g hb
        refine ⟨h1, h2, fun hu => ?_⟩
        obtain ⟨e, y, hy, hyb⟩ := h3 hu
        by_cases hed : e = d
        · subst hed
          rw [hx] at hy
          cases hy
          exact ⟨e, _, setAt_same _ _ _, hyb⟩
        · exact ⟨e, y, by rw [← hy]; exact setAt_ne _ _ hed, hyb⟩
      · exact h

theorem createDocument_files {w : Registry} (a : Nat) (hi : RegInv w) (h : FilesOk w) : FilesOk (createDocumentAt w a).1 := by
  unfold createDocumentAt
  split
  · exact h
  · rename_i f hf
    split
    · rename_i ht
      exact newDocument_files hi h hf ht
    · exact h

theorem releaseDocument_files {w : Registry} (d : Nat) (hi : RegInv w) (h : FilesOk w) : FilesOk (releaseDocument w d).1 := by
  unfold releaseDocument
  split
  · rename_i a n hx
    intro b g hb
    obtain ⟨h1, h2, h3⟩ := h b g hb
    refine ⟨h1, h2, fun hu => ?_⟩
    obtain ⟨e, y, hy, hyb⟩ := h3 hu
    by_cases hed : e = d
    · subst hed
      rw [hx] at hy
      cases hy
      exact ⟨e, _, setAt_same _ _ _, hyb⟩
    · exact ⟨e, y, by rw [← hy]; exact setAt_ne _ _ hed, hyb⟩
  · rename_i a n hn hx
    obtain ⟨_, _, hta, f, hf, hfu⟩ := hi.doc _ _ hx
    dsimp only at hta hf
    intro b g hb
    dsimp only at hb
    rw [hf] at hb
    dsimp only at hb
    by_cases hba : b = a
    · rw [hba, setAt_same] at hb
      obtain ⟨rfl, h1⟩ := settle_some hb
      obtain ⟨_, h2, _⟩ := h a f hf
      exact ⟨h1, by dsimp only; omega, fun hu => by dsimp only at hu; omega⟩
    · rw [setAt_ne _ _ hba] at hb
      obtain ⟨h1, h2, h3⟩ := h b g hb
      refine ⟨h1, h2, fun hu => ?_⟩
      obtain ⟨e, y, hy, hyb⟩ := h3 hu
      have hed : e ≠ d := fun q => by
        subst q
        rw [hx] at hy
        cases hy
        exact hba hyb.symm
      exact ⟨e, y, by rw [← hy]; exact setAt_ne _ _ hed, hyb⟩
  · exact h

theorem docCall_files {w : Registry} (c : DocCall) (hi : RegInv w) (h : FilesOk w) : FilesOk (docCall w c).1 := by
  cases c with
  | openFile a r =>
    simp only [docCall]
    split
    · exact h
    · exact openFile_files a r h
  | releaseFile a => exact releaseFile_files a h
  | openDocument a => exact openDocument_files a hi h
  | openPath a r =>
    simp only [docCall]
    by_cases hf : (w.files a).isSome
    · rw [if_pos hf]; exact h
    · rw [if_neg hf]
      exact releaseFile_files a (openDocument_files a (openFile_inv r hi (by simpa using hf)) (openFile_files a r h))
  | createPath a =>
    simp only [docCall]
    by_cases hf : (w.files a).isSome
    · rw [if_pos hf]; exact h
    · rw [if_neg hf]
      exact releaseFile_files a (createDocument_files a (openFile_inv true hi (by simpa using hf)) (openFile_files a true h))
  | releaseDocument d => exact releaseDocument_files d hi h
  | follow a =>
    simp only [docCall, followLink]
    split
    · exact h
    · split <;> exact h

theorem docCalls_files {w : Registry} (cs : List DocCall) (hi : RegInv w) (h : FilesOk w) : FilesOk (docCalls w cs).1 := by
  induction cs generalizing w with
  | nil => exact h
  | cons c cs ih => exact ih (docCall_step c hi).inv (docCall_files c hi h)

/-- The handles of a file. -/
def fileHandles (w : Registry) (a : Nat) : Nat :=
  match w.files a with
  | some f => f.handles
  | none => 0

theorem fileHandles_set {w : Registry} {files : Nat → Option FileObj} {docs : Nat → Option DocObj} {table : Nat → Option (Option Nat)}
    {next : Nat} (a : Nat) (h : ∀ b, b = a → files b = w.files b) : fileHandles ⟨files, docs, table, next⟩ a = fileHandles w a := by
  unfold fileHandles
  dsimp only
  rw [h a rfl]

theorem settle_handles (g : FileObj) : (match settleFile g with | some f => f.handles | none => 0) = g.handles := by
  unfold settleFile
  by_cases h : g.handles = 0 ∧ g.uses = 0
  · rw [if_pos h]; exact h.1.symm
  · rw [if_neg h]

theorem releaseFile_count {w : Registry} (a b : Nat) :
    fileHandles (releaseFileAt w b).1 a = if b = a ∧ (releaseFileAt w b).2 = .done then fileHandles w a - 1 else fileHandles w a := by
  unfold releaseFileAt
  split
  · rename_i hh u r e
    by_cases hba : b = a
    · subst hba
      rw [if_pos ⟨rfl, rfl⟩]
      unfold fileHandles
      dsimp only
      rw [setAt_same, e]
      exact settle_handles _
    · rw [if_neg (fun q => hba q.1)]
      unfold fileHandles
      dsimp only
      rw [setAt_ne _ _ (fun q => hba q.symm)]
  · rw [if_neg (fun q => by cases q.2)]

theorem newDocument_count {w : Registry} {b : Nat} {f : FileObj} (hf : w.files b = some f) (a : Nat) :
    fileHandles (newDocument w b f).1 a = fileHandles w a := by
  unfold newDocument
  by_cases hr : f.readable = true
  · rw [if_pos hr]
    unfold fileHandles
    dsimp only
    by_cases hba : a = b
    · rw [hba, setAt_same, hf]
    · rw [setAt_ne _ _ hba]
  · rw [if_neg hr]
    rfl

theorem openDocument_count {w : Registry} (b a : Nat) : fileHandles (openDocumentAt w b).1 a = fileHandles w a := by
  unfold openDocumentAt
  split
  · rfl
  · rename_i f hf
    split
    · exact newDocument_count hf a
    · rfl
    · split <;> rfl

theorem createDocument_count {w : Registry} (b a : Nat) : fileHandles (createDocumentAt w b).1 a = fileHandles w a := by
  unfold createDocumentAt
  split
  · rfl
  · rename_i f hf
    split
    · exact newDocument_count hf a
    · rfl

theorem path_count {w w' : Registry} (b a : Nat) (hb : w.files b = none) (r : Bool)
    (h : ∀ c, fileHandles w' c = fileHandles (openFileAt w b r) c) : fileHandles (releaseFileAt w' b).1 a = fileHandles w a := by
  rw [releaseFile_count]
  have hopen : fileHandles (openFileAt w b r) b = 1 := by
    unfold fileHandles openFileAt
    dsimp only
    rw [setAt_same]
  have h0 : fileHandles w b = 0 := by unfold fileHandles; rw [hb]
  have hone : fileHandles w' b = 1 := (h b).trans hopen
  by_cases hba : b = a
  · subst hba
    have hdone : (releaseFileAt w' b).2 = .done := by
      unfold fileHandles at hone
      unfold releaseFileAt
      match hw : w'.files b with
      | none => rw [hw] at hone; cases hone
      | some ⟨k + 1, u, r⟩ => rfl
      | some ⟨0, u, r⟩ => rw [hw] at hone; cases hone
    rw [if_pos ⟨rfl, hdone⟩, hone, h0]
  · rw [if_neg (fun q => hba q.1), h a]
    unfold fileHandles openFileAt
    dsimp only
    rw [setAt_ne _ _ (fun q => hba q.symm)]

theorem docCall_count {w : Registry} (c : DocCall) (a : Nat) (hi : RegInv w) :
    fileHandles (docCall w c).1 a = if ∃ r, c = .openFile a r ∧ (docCall w c).2 = .done then fileHandles w a + 1
      else if c = .releaseFile a ∧ (docCall w c).2 = .done then fileHandles w a - 1 else fileHandles w a := by
  cases c with
  | openFile b r =>
    rw [if_neg (c := _ ∧ _) (fun q => by cases q.1)]
    by_cases hf : (w.files b).isSome
    · have e : docCall w (.openFile b r) = (w, .misuse) := by simp only [docCall]; rw [if_pos hf]
      rw [e, if_neg (by rintro ⟨_, _, q⟩; cases q)]
    · have e : docCall w (.openFile b r) = (openFileAt w b r, .done) := by simp only [docCall]; rw [if_neg hf]
      rw [e]
      unfold fileHandles openFileAt
      dsimp only
      by_cases hba : a = b
      · subst hba
        rw [if_pos ⟨r, rfl, rfl⟩, setAt_same, show w.files a = none by simpa using hf]
      · rw [if_neg (by rintro ⟨_, q, _⟩; cases q; exact hba rfl), setAt_ne _ _ hba]
  | releaseFile b =>
    rw [if_neg (by rintro ⟨_, q, _⟩; cases q)]
    simp only [docCall]
    rw [releaseFile_count]
    by_cases hba : b = a
    · subst hba; simp
    · simp [hba]
  | openDocument b =>
    rw [if_neg (by rintro ⟨_, q, _⟩; cases q), if_neg (fun q => by cases q.1)]
    exact openDocument_count b a
  | openPath b r =>
    rw [if_neg (by rintro ⟨_, q, _⟩; cases q), if_neg (fun q => by cases q.1)]
    simp only [docCall]
    by_cases hf : (w.files b).isSome
    · rw [if_pos hf]
    · rw [if_neg hf]
      exact path_count b a (by simpa using hf) r (openDocument_count b)
  | createPath b =>
    rw [if_neg (by rintro ⟨_, q, _⟩; cases q), if_neg (fun q => by cases q.1)]
    simp only [docCall]
    by_cases hf : (w.files b).isSome
    · rw [if_pos hf]
    · rw [if_neg hf]
      exact path_count b a (by simpa using hf) true (createDocument_count b)
  | releaseDocument d =>
    rw [if_neg (by rintro ⟨_, q, _⟩; cases q), if_neg (fun q => by cases q.1)]
    simp only [docCall]
    unfold releaseDocument
    split
    · rfl
    · rename_i b n hn hx
      obtain ⟨_, _, _, f, hf, _⟩ := hi.doc _ _ hx
      dsimp only at hf
      unfold fileHandles
      dsimp only
      rw [hf]
      dsimp only
      by_cases hba : a = b
      · rw [hba, setAt_same, hf]
        exact settle_handles _
      · rw [setAt_ne _ _ hba]
    · rfl
  | follow b =>
    rw [if_neg (by rintro ⟨_, q, _⟩; cases q), if_neg (fun q => by cases q.1)]
    simp only [docCall, followLink]
    split
    · rfl
    · split <;> rfl

theorem count_track {w : Registry} (cs : List DocCall) (h : RegInv w) (a : Nat) :
    fileHandlesOf a (fileHandles w a) (docCalls w cs).2 = fileHandles (docCalls w cs).1 a := by
  induction cs generalizing w with
  | nil => rfl
  | cons c cs ih =>
    show fileHandlesOf a (if ∃ r, c = .openFile a r ∧ (docCall w c).2 = .done then fileHandles w a + 1
      else if c = .releaseFile a ∧ (docCall w c).2 = .done then fileHandles w a - 1 else fileHandles w a) _ = _
    rw [← docCall_count c a h]
    exact ih (docCall_step c h).inv

/-- An open document was given for its file. -/
theorem doc_given {w : Registry} (cs : List DocCall) (h : RegInv w) {d : Nat} {x : DocObj} (hx : (docCalls w cs).1.docs d = some x) :
    GivenFor x.file d (docCalls w cs).2 ∨ ∃ y, w.docs d = some y := by
  induction cs generalizing w with
  | nil => exact .inr ⟨x, hx⟩
  | cons c cs ih =>
    have hs := docCall_step c h
    rcases ih hs.inv hx with ⟨c', h1, h2⟩ | ⟨y, hy⟩
    · exact .inl ⟨c', h1, List.mem_cons_of_mem _ h2⟩
    · cases hw : w.docs d with
      | some z => exact .inr ⟨z, rfl⟩
      | none =>
        left
        have hh := hs.handles d
        have h0 : handlesNow w d = 0 := by unfold handlesNow; rw [hw]
        have h1 : 0 < handlesNow (docCall w c).1 d := by unfold handlesNow; rw [hy]; exact (hs.inv.doc _ _ hy).1
        by_cases hc : (asksFor c).isSome ∧ (docCall w c).2 = .document d
        · obtain ⟨b, hb⟩ := Option.isSome_iff_exists.mp hc.1
          obtain ⟨z, hz, hzb⟩ := hs.given b d hb hc.2
          have := keeps_file cs hs.inv (hs.inv.doc _ _ hz).2.1 (a := b) (fun q e => by rw [hz] at e; cases e; exact hzb) x hx
          refine ⟨c, by rw [this]; exact hb, ?_⟩
          rw [← hc.2]
          exact List.mem_cons_self
        · rw [if_neg hc] at hh
          split at hh <;> omega

end VPdf
