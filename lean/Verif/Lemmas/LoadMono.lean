import Verif.Model.ObjectStream
import Verif.Lemmas.WriteChain
/-
  Reading more with a resolver that knows more: nothing that could be read changes.
-/
namespace VPdf

/-- The second parser reads the same input and follows at least the references the first one follows. -/
structure Env.Le (e e' : Env) : Prop where
  whole : e.whole = e'.whole
  init : e.initialized = e'.initialized
  res : ∀ n g i, e.resolveInt n g = .ok i → e'.resolveInt n g = .ok i

theorem Env.Le.asInt {e e' : Env} (h : Env.Le e e') {o : Obj} {i : Int} (ho : asInt e o = .ok i) : VPdf.asInt e' o = .ok i := by
  cases o with
  | ref n g => exact h.res n g i ho
  | _ => exact ho

theorem Env.Le.seek {e e' : Env} (h : Env.Le e e') (p : Int) : e'.seek p = e.seek p := by unfold Env.seek; rw [h.whole]

theorem Env.Le.pos {e e' : Env} (h : Env.Le e e') (s : Bytes) : e'.pos s = e.pos s := by unfold Env.pos; rw [h.whole]

theorem endstreamLine_le {e e' : Env} (h : Env.Le e e') (s r : Bytes) (p : Nat) : endstreamLine e' s r p = endstreamLine e s r p := by
  unfold endstreamLine
  rw [h.pos]
  simp only [h.seek]

theorem correctLength_le {e e' : Env} (h : Env.Le e e') {d d' : Dict} {len : Int} (ho : correctLength e d len = .ok d') :
    correctLength e' d len = .ok d' := by
  unfold correctLength at ho ⊢
  rw [← h.init]
  cases hm : mapFind (b! "Length") d with
  | none => rw [hm] at ho; exact ho
  | some lo =>
    simp only [hm] at ho ⊢
    cases hi : e.initialized with
    | false => simp only [hi] at ho ⊢; cases lo <;> exact ho
    | true =>
      simp only [hi, if_true] at ho ⊢
      cases lo with
      | int i => exact ho
      | _ =>
        obtain ⟨i, h1, h2⟩ := except_bind_ok ho
        simp only [h.asInt h1, ok_bind]
        exact h2

theorem streamFallback_le {e e' : Env} (h : Env.Le e e') (d : Dict) (off : Nat) {x : Dict × Bytes} : ∀ (f : Nat) (s : Bytes),
    streamFallback e d off f s = .ok x → streamFallback e' d off f s = .ok x := by
  intro f
  induction f with
  | zero => intro s hs; cases hs
  | succ f ih =>
    intro s hs
    cases s with
    | nil => cases hs
    | cons b s =>
      rw [streamFallback] at hs ⊢
      · dsimp only at hs ⊢
        cases hf : findSub (b! "endstream") (readLine (b :: s)).1 with
        | none => simp only [hf] at hs ⊢; exact ih _ hs
        | some p =>
          simp only [hf] at hs ⊢
          obtain ⟨t, h1, hs⟩ := except_bind_ok hs
          obtain ⟨⟨o, rem⟩, h2, hs⟩ := except_bind_ok hs
          obtain ⟨d', h3, hs⟩ := except_bind_ok hs
          rw [h1, ok_bind, endstreamLine_le h, h2, ok_bind]
          dsimp only
          rw [correctLength_le h h3, ok_bind]
          exact hs
      all_goals simp

theorem readStreamPart_le {e e' : Env} (h : Env.Le e e') {d : Dict} {s : Bytes} {x : PObj × Bytes}
    (ho : readStreamPart e d s = .ok x) : readStreamPart e' d s = .ok x := by
  unfold readStreamPart at ho ⊢
  obtain ⟨⟨t, r⟩, h1, ho⟩ := except_bind_ok ho
  rw [h1, ok_bind]
  dsimp only at ho ⊢
  by_cases ht : (t.type == .keyword (b! "stream")) = true
  · rw [if_pos ht] at ho ⊢
    obtain ⟨⟨t2, r2⟩, h2, ho⟩ := except_bind_ok ho
    rw [h2, ok_bind]
    dsimp only at ho ⊢
    by_cases h3 : (t2.type != .eol) = true
    · rw [if_pos h3] at ho; cases ho
    · rw [if_neg h3] at ho ⊢
      rw [h.pos]
      have fb : ∀ {y : PObj × Bytes}, (do
          let (d', rem) ← streamFallback e d (e.pos r2) (r2.length + 1) r2
          pure (PObj.stream d' (e.pos r2), rem) : Res (PObj × Bytes)) = .ok y → (do
          let (d', rem) ← streamFallback e' d (e.pos r2) (r2.length + 1) r2
          pure (PObj.stream d' (e.pos r2), rem) : Res (PObj × Bytes)) = .ok y := by
        intro y hy
        obtain ⟨z, h4, h5⟩ := except_bind_ok hy
        rw [streamFallback_le h d _ _ _ h4, ok_bind]; exact h5
      cases hm : mapFind (b! "Length") d with
      | none => simp only [hm] at ho ⊢; exact fb ho
      | some lo =>
        simp only [hm, ← h.init] at ho ⊢
        have main : ∀ {y : PObj × Bytes}, (do
            let len ← asInt e lo
            let (t3, r3) ← readTokenSkip parserKeywords (e.seek (e.pos r2 + len))
            if t3.type == .keyword (b! "endstream") then pure (PObj.stream d (e.pos r2), r3)
            else do
              let (d', rem) ← streamFallback e d (e.pos r2) (r2.length + 1) r2
              pure (PObj.stream d' (e.pos r2), rem) : Res (PObj × Bytes)) = .ok y → (do
            let len ← asInt e' lo
            let (t3, r3) ← readTokenSkip parserKeywords (e'.seek (e.pos r2 + len))
            if t3.type == .keyword (b! "endstream") then pure (PObj.stream d (e.pos r2), r3)
            else do
              let (d', rem) ← streamFallback e' d (e.pos r2) (r2.length + 1) r2
              pure (PObj.stream d' (e.pos r2), rem) : Res (PObj × Bytes)) = .ok y := by
          intro y ho
          obtain ⟨len, h4, ho⟩ := except_bind_ok ho
          obtain ⟨⟨t3, r3⟩, h5, ho⟩ := except_bind_ok ho
          rw [h.asInt h4, ok_bind, h.seek, h5, ok_bind]
          dsimp only at ho ⊢
          by_cases h6 : (t3.type == .keyword (b! "endstream")) = true
          · rw [if_pos h6] at ho ⊢; exact ho
          · rw [if_neg h6] at ho ⊢; exact fb ho
        by_cases hi : (!e.initialized) = true
        · cases lo <;> dsimp only at ho ⊢ <;> first
            | (rw [if_pos hi] at ho ⊢; exact fb ho)
            | (rw [if_neg (by simp)] at ho ⊢; exact main ho)
        · cases lo <;> dsimp only at ho ⊢ <;> first
            | (rw [if_neg hi] at ho ⊢; exact main ho)
            | (rw [if_neg (by simp)] at ho ⊢; exact main ho)
  · rw [if_neg ht] at ho ⊢; exact ho

theorem read_le {e e' : Env} (h : Env.Le e e') : ∀ f : Nat,
    (∀ s x, readDirect e f s = .ok x → readDirect e' f s = .ok x) ∧
    (∀ s acc x, readArr e f s acc = .ok x → readArr e' f s acc = .ok x) ∧
    (∀ s acc x, readDict e f s acc = .ok x → readDict e' f s acc = .ok x) := by
  intro f
  induction f with
  | zero => exact ⟨fun _ _ h => by simp [readDirect] at h, fun _ _ _ h => by simp [readArr] at h, fun _ _ _ h => by simp [readDict] at h⟩
  | succ f ih =>
    obtain ⟨ih1, ih2, ih3⟩ := ih
    refine ⟨?_, ?_, ?_⟩
    · intro s x hx
      rw [readDirect] at hx ⊢
      obtain ⟨⟨t, r⟩, h1, hx⟩ := except_bind_ok hx
      rw [h1, ok_bind]
      dsimp only at hx ⊢
      cases ht : t.type <;> simp only [ht] at hx ⊢ <;> try exact hx
      · obtain ⟨⟨d, r⟩, h2, hx⟩ := except_bind_ok hx
        rw [ih3 _ _ _ h2, ok_bind]
        exact readStreamPart_le h hx
      · exact ih2 _ _ _ hx
    · intro s acc x hx
      rw [readArr] at hx ⊢
      obtain ⟨⟨t, r⟩, h1, hx⟩ := except_bind_ok hx
      rw [h1, ok_bind]
      dsimp only at hx ⊢
      by_cases ht : (t.type == .arrayEnd) = true
      · rw [if_pos ht] at hx ⊢; exact hx
      · rw [if_neg ht] at hx ⊢
        obtain ⟨⟨o, r⟩, h2, hx⟩ := except_bind_ok hx
        rw [ih1 _ _ h2, ok_bind]
        cases o with
        | direct o => exact ih2 _ _ _ hx
        | stream d off => exact hx
    · intro s acc x hx
      rw [readDict] at hx ⊢
      obtain ⟨⟨t, r⟩, h1, hx⟩ := except_bind_ok hx
      rw [h1, ok_bind]
      dsimp only at hx ⊢
      by_cases ht : (t.type == .dictEnd) = true
      · rw [if_pos ht] at hx ⊢; exact hx
      · rw [if_neg ht] at hx ⊢
        obtain ⟨⟨k, r1⟩, h2, hx⟩ := except_bind_ok hx
        obtain ⟨⟨v, r2⟩, h3, hx⟩ := except_bind_ok hx
        rw [ih1 _ _ h2, ok_bind]
        dsimp only at hx ⊢
        rw [ih1 _ _ h3, ok_bind]
        dsimp only at hx ⊢
        revert hx
        split
        · exact ih3 _ _ _
        · split
          · exact ih3 _ _ _
          · exact ih3 _ _ _
        · split
          · exact ih3 _ _ _
          · exact id
        · exact ih3 _ _ _

theorem parse_le {e e' : Env} (h : Env.Le e e') {s : Bytes} {x : PObj × Bytes} (hx : parse e s = .ok x) : parse e' s = .ok x :=
  (read_le h _).1 s x hx

theorem parseIndirect_le {e e' : Env} (h : Env.Le e e') {s : Bytes} {x : Nat × Nat × PObj × Bytes}
    (hx : parseIndirect e s = .ok x) : parseIndirect e' s = .ok x := by
  unfold parseIndirect at hx ⊢
  obtain ⟨⟨tn, s1⟩, h1, hx⟩ := except_bind_ok hx
  obtain ⟨⟨tg, s2⟩, h2, hx⟩ := except_bind_ok hx
  obtain ⟨⟨_, s3⟩, h3, hx⟩ := except_bind_ok hx
  obtain ⟨⟨o, s4⟩, h4, hx⟩ := except_bind_ok hx
  rw [h1, ok_bind]; dsimp only
  rw [h2, ok_bind]; dsimp only
  rw [h3, ok_bind]; dsimp only
  rw [parse_le h h4, ok_bind]
  exact hx

theorem rawBody_le {e e' : Env} (h : Env.Le e e') {d : Dict} {off : Nat} {x : Bytes} (hx : rawBody e d off = .ok x) :
    rawBody e' d off = .ok x := by
  unfold rawBody at hx ⊢
  cases hm : mapFind (b! "Length") d with
  | none => rw [hm] at hx; cases hx
  | some o =>
    simp only [hm, ← h.whole] at hx ⊢
    obtain ⟨i, h1, hx⟩ := except_bind_ok hx
    rw [h.asInt h1, ok_bind]; exact hx

theorem loadAt_le {e e' : Env} (h : Env.Le e e') {n g : Nat} {off : Int} {x : SObj} (hx : loadAt e n g off = .ok x) :
    loadAt e' n g off = .ok x := by
  unfold loadAt at hx ⊢
  rw [h.seek]
  obtain ⟨⟨n', g', o, r⟩, h1, hx⟩ := except_bind_ok hx
  rw [parseIndirect_le h h1, ok_bind]
  dsimp only at hx ⊢
  by_cases hc : n' ≠ n ∨ g' ≠ g
  · rw [if_pos hc] at hx; cases hx
  · rw [if_neg hc] at hx ⊢
    cases o with
    | direct o => exact hx
    | stream d off =>
      obtain ⟨body, h2, hx⟩ := except_bind_ok hx
      show (rawBody e' d off >>= _) = _
      rw [rawBody_le h h2, ok_bind]; exact hx

theorem readObjStmObjects_le {e e' : Env} (h : Env.Le e e') (first : Nat) : ∀ (l : List (Nat × Int)) (x : List (Nat × Obj)),
    readObjStmObjects e first l = .ok x → readObjStmObjects e' first l = .ok x := by
  intro l
  induction l with
  | nil => intro x hx; exact hx
  | cons a l ih =>
    intro x hx
    obtain ⟨n, off⟩ := a
    rw [readObjStmObjects] at hx ⊢
    rw [h.seek]
    obtain ⟨⟨o, r⟩, h1, hx⟩ := except_bind_ok hx
    rw [parse_le h h1, ok_bind]
    cases o with
    | stream d o => cases hx
    | direct o =>
      dsimp only at hx ⊢
      obtain ⟨y, h2, hx⟩ := except_bind_ok hx
      rw [ih _ h2, ok_bind]; exact hx

theorem natEntry_le {e e' : Env} (h : Env.Le e e') {k : Bytes} {d : Dict} {v : Nat} (hx : natEntry e k d = .ok v) :
    natEntry e' k d = .ok v := by
  unfold natEntry at hx ⊢
  cases hm : mapFind k d with
  | none => rw [hm] at hx; cases hx
  | some o =>
    simp only [hm] at hx ⊢
    obtain ⟨i, h1, hx⟩ := except_bind_ok hx
    rw [h.asInt h1, ok_bind]; exact hx

theorem objStmContent_le {c : Codec} {r r' : Nat → Nat → Res Int} (h : ∀ n g i, r n g = .ok i → r' n g = .ok i) {o : SObj}
    {x : List (Nat × Obj)} (hx : objStmContent c r o = .ok x) : objStmContent c r' o = .ok x := by
  cases o with
  | direct o => exact hx
  | stream d raw =>
    rw [objStmContent] at hx ⊢
    have le : ∀ b, Env.Le ⟨b, true, r⟩ ⟨b, true, r'⟩ := fun b => ⟨rfl, rfl, h⟩
    obtain ⟨size, h1, hx⟩ := except_bind_ok hx
    obtain ⟨first, h2, hx⟩ := except_bind_ok hx
    obtain ⟨body, h3, hx⟩ := except_bind_ok hx
    rw [natEntry_le (le _) h1, ok_bind, natEntry_le (le _) h2, ok_bind, h3, ok_bind]
    by_cases hb : body = []
    · rw [if_pos hb] at hx; cases hx
    · rw [if_neg hb] at hx ⊢
      unfold readObjStm at hx ⊢
      obtain ⟨hd, h4, hx⟩ := except_bind_ok hx
      dsimp only at h4 hx ⊢
      rw [h4, ok_bind]
      exact readObjStmObjects_le (le body) _ _ _ hx

end VPdf
