import Verif.Model.Peek
import Verif.Lemmas.Skip
/-
  C06: peeking does not change what is read.
-/
namespace VPdf

/-- Every cached item is what reading at its offset gives. -/
def CacheOk (dict : List Bytes) (whole : Bytes) (c : Cache) : Prop :=
  ∀ p i, cacheFind p c = some i → readAt dict whole p = (.ok i.token, i.advance)

theorem cacheFind_put (p q : Pos) (i : CacheItem) (c : Cache) :
    cacheFind q (cachePut p i c) = some i ∧ q = p ∨ cacheFind q (cachePut p i c) = cacheFind q c ∧ q ≠ p := by
  by_cases h : q = p
  · left
    refine ⟨?_, h⟩
    subst h
    induction c with
    | nil => simp [cachePut, cacheFind]
    | cons a c ih =>
      obtain ⟨r, j⟩ := a
      unfold cachePut
      split
      · simp [cacheFind]
      · split
        · simp [cacheFind]
        · rename_i h1 h2
          simp [cacheFind, h1, ih]
  · right
    refine ⟨?_, h⟩
    induction c with
    | nil => simp [cachePut, cacheFind, h]
    | cons a c ih =>
      obtain ⟨r, j⟩ := a
      unfold cachePut
      split
      · rename_i h1; subst h1; simp [cacheFind, h]
      · split
        · simp [cacheFind, h]
        · simp [cacheFind, ih]

theorem cacheOk_nil (dict : List Bytes) (whole : Bytes) : CacheOk dict whole [] := by
  intro p i h; cases h

/-- Keys of the cache are distinct: a `std::map`. -/
def CacheMap (c : Cache) : Prop := c.Pairwise (fun a b => posLt a.1 b.1 = true)

theorem posLt_trans {a b c : Pos} (h1 : posLt a b = true) (h2 : posLt b c = true) : posLt a c = true := by
  cases a <;> cases b <;> cases c <;> simp [posLt] at * <;> omega

theorem posLt_total {a b : Pos} (h1 : a ≠ b) (h2 : ¬ posLt a b = true) : posLt b a = true := by
  cases a <;> cases b <;> simp [posLt] at * <;> omega

theorem cachePut_mem {p : Pos} {i : CacheItem} {c : Cache} {x : Pos × CacheItem} (h : x ∈ cachePut p i c) :
    x = (p, i) ∨ x ∈ c := by
  induction c with
  | nil => simpa [cachePut] using h
  | cons a c ih =>
    obtain ⟨q, j⟩ := a
    unfold cachePut at h
    split at h
    · simp at h; rcases h with h | h <;> simp [h]
    · split at h
      · simp at h; rcases h with h | h | h <;> simp [h]
      · simp at h
        rcases h with h | h
        · simp [h]
        · rcases ih h with h | h <;> simp [h]

theorem cachePut_map {p : Pos} {i : CacheItem} {c : Cache} (h : CacheMap c) : CacheMap (cachePut p i c) := by
  induction c with
  | nil => simp [cachePut, CacheMap]
  | cons a c ih =>
    obtain ⟨q, j⟩ := a
    obtain ⟨h1, h2⟩ := List.pairwise_cons.mp h
    unfold cachePut
    split
    · rename_i e; subst e; exact List.pairwise_cons.mpr ⟨h1, h2⟩
    · split
      · rename_i e hlt
        refine List.pairwise_cons.mpr ⟨?_, h⟩
        intro x hx
        simp at hx
        rcases hx with rfl | hx
        · exact hlt
        · exact posLt_trans hlt (h1 x hx)
      · rename_i e hlt
        refine List.pairwise_cons.mpr ⟨?_, ih h2⟩
        intro x hx
        rcases cachePut_mem hx with rfl | hx
        · exact posLt_total e hlt
        · exact h1 x hx

theorem cacheFind_mem {p : Pos} {i : CacheItem} {c : Cache} (h : cacheFind p c = some i) : (p, i) ∈ c := by
  induction c with
  | nil => cases h
  | cons a c ih =>
    obtain ⟨q, j⟩ := a
    unfold cacheFind at h
    split at h
    · rename_i e; cases h; subst e; simp
    · simp [ih h]

theorem posLt_irrefl (p : Pos) : posLt p p = false := by cases p <;> simp [posLt]

theorem cacheFind_tail {p : Pos} {i : CacheItem} {c : Cache} (hm : CacheMap c) (h : cacheFind p c.tail = some i) :
    cacheFind p c = some i := by
  cases c with
  | nil => cases h
  | cons a c =>
    obtain ⟨q, j⟩ := a
    have h1 := (List.pairwise_cons.mp hm).1 _ (cacheFind_mem h)
    have : p ≠ q := by intro e; subst e; rw [posLt_irrefl] at h1; cases h1
    unfold cacheFind; rw [if_neg this]; exact h

/-- State invariant of a tokenizer. -/
def TokOk (dict : List Bytes) (whole : Bytes) (k : Tok) : Prop := CacheOk dict whole k.cache ∧ CacheMap k.cache

theorem tokRead_eq {dict : List Bytes} {whole : Bytes} {k : Tok} (h : TokOk dict whole k) :
    tokRead dict whole k = ((readAt dict whole k.pos).1, ⟨(readAt dict whole k.pos).2, k.cache⟩) := by
  unfold tokRead
  split
  · rename_i i hi; rw [h.1 _ _ hi]
  · rfl

theorem tokPeek_eq {dict : List Bytes} {whole : Bytes} {k : Tok} (h : TokOk dict whole k) :
    (tokPeek dict whole k).1 = (readAt dict whole k.pos).1 ∧ TokOk dict whole (tokPeek dict whole k).2 ∧
    (tokPeek dict whole k).2.pos = (match (readAt dict whole k.pos).1 with
      | .ok _ => k.pos | .error _ => (readAt dict whole k.pos).2) := by
  unfold tokPeek
  split
  · rename_i i hi; rw [h.1 _ _ hi]; exact ⟨rfl, h, rfl⟩
  · rename_i hnone
    rw [tokRead_eq h]
    cases hr : readAt dict whole k.pos with
    | mk r p =>
      cases r with
      | error f => exact ⟨rfl, h, rfl⟩
      | ok t =>
        refine ⟨rfl, ?_, rfl⟩
        have hc : ∀ c', (∀ q i, cacheFind q c' = some i → cacheFind q k.cache = some i) → CacheMap c' →
            TokOk dict whole ⟨k.pos, cachePut k.pos ⟨t, p⟩ c'⟩ := by
          intro c' h1 h2
          refine ⟨?_, cachePut_map h2⟩
          intro q i hq
          rcases cacheFind_put k.pos q ⟨t, p⟩ c' with ⟨e, hp⟩ | ⟨e, hp⟩
          · rw [e] at hq; cases hq; subst hp; exact hr
          · rw [e] at hq; exact h.1 q i (h1 q i hq)
        dsimp only
        split
        · exact hc _ (fun q i hq => cacheFind_tail h.2 hq) (List.Pairwise.tail h.2)
        · exact hc _ (fun q i hq => hq) h.2

/-! ### the specification: a reader without a cache -/

/-- What the operations do to the position and what they report, without a cache: `read` reads the token at the
position; `peek` reports the same and stays; a failing `peek` moves like a failing `read`. -/
def Spec.plainStep (rd : Pos → Res Token × Pos) (p : Pos) : TokOp → Option (Res Token) × Pos
  | .read => (some (rd p).1, (rd p).2)
  | .peek => (some (rd p).1, match (rd p).1 with | .ok _ => p | .error _ => (rd p).2)
  | .seek n => (none, some n)

/-- A sequence of operations without a cache. -/
def Spec.plainRun (rd : Pos → Res Token × Pos) : Pos → List TokOp → List (TokOp × Option (Res Token)) × Pos
  | p, [] => ([], p)
  | p, o :: os =>
    let r := Spec.plainStep rd p o
    let rs := Spec.plainRun rd r.2 os
    ((o, r.1) :: rs.1, rs.2)

theorem tokStep_eq {dict : List Bytes} {whole : Bytes} {k : Tok} (h : TokOk dict whole k) (o : TokOp) :
    (tokStep dict whole k o).1 = (Spec.plainStep (readAt dict whole) k.pos o).1 ∧
    (tokStep dict whole k o).2.pos = (Spec.plainStep (readAt dict whole) k.pos o).2 ∧
    TokOk dict whole (tokStep dict whole k o).2 := by
  cases o with
  | read =>
    simp only [tokStep]
    rw [tokRead_eq h]
    exact ⟨rfl, rfl, h⟩
  | peek =>
    obtain ⟨h1, h2, h3⟩ := tokPeek_eq h
    exact ⟨congrArg some h1, h3, h2⟩
  | seek n => exact ⟨rfl, rfl, h⟩

theorem tokRun_eq {dict : List Bytes} {whole : Bytes} {k : Tok} (h : TokOk dict whole k) (ops : List TokOp) :
    (tokRun dict whole k ops).1 = (Spec.plainRun (readAt dict whole) k.pos ops).1 ∧
    (tokRun dict whole k ops).2.pos = (Spec.plainRun (readAt dict whole) k.pos ops).2 ∧
    TokOk dict whole (tokRun dict whole k ops).2 := by
  induction ops generalizing k with
  | nil => exact ⟨rfl, rfl, h⟩
  | cons o os ih =>
    obtain ⟨h1, h2, h3⟩ := tokStep_eq h o
    obtain ⟨i1, i2, i3⟩ := ih h3
    refine ⟨?_, ?_, i3⟩
    · show (o, (tokStep dict whole k o).1) :: (tokRun dict whole (tokStep dict whole k o).2 os).1 = _
      rw [i1, h1, h2]; rfl
    · show (tokRun dict whole (tokStep dict whole k o).2 os).2.pos = _
      rw [i2, h2]; rfl

/-! ### C06 -/

/-- **C06**, refinement: for every input, every dictionary of keywords and every sequence of reads, peeks and seeks, a
new tokenizer with its cache (of any content it reaches, evictions included) reports exactly the tokens and
exceptions of the reader without a cache, and stands at the same position. -/
theorem C06_cache_unobservable (dict : List Bytes) (whole : Bytes) (start : Nat) (ops : List TokOp) :
    (tokRun dict whole ⟨some start, []⟩ ops).1 = (Spec.plainRun (readAt dict whole) (some start) ops).1 ∧
    (tokRun dict whole ⟨some start, []⟩ ops).2.pos = (Spec.plainRun (readAt dict whole) (some start) ops).2 :=
  let h := tokRun_eq (k := ⟨some start, []⟩) ⟨cacheOk_nil dict whole, List.Pairwise.nil⟩ ops
  ⟨h.1, h.2.1⟩

/-- The results of the operations other than `peek`. -/
def Spec.withoutPeeks (l : List (TokOp × Option (Res Token))) : List (TokOp × Option (Res Token)) :=
  l.filter (fun x => x.1 ≠ .peek)

/-- No `peek` of the run reported an exception. -/
def Spec.noPeekFails (l : List (TokOp × Option (Res Token))) : Prop :=
  ∀ x ∈ l, x.1 = .peek → ∃ t, x.2 = some (.ok t)

/-- **C06**, partial (peeks that fail are excluded, see `C06_failing_peek_counterexample`): leaving out all peeks of any
sequence of operations changes neither the results of the remaining operations nor the final position. -/
theorem C06_peeks_are_transparent_partial (dict : List Bytes) (whole : Bytes) (start : Nat) (ops : List TokOp)
    (h : Spec.noPeekFails (tokRun dict whole ⟨some start, []⟩ ops).1) :
    Spec.withoutPeeks (tokRun dict whole ⟨some start, []⟩ ops).1 =
      (tokRun dict whole ⟨some start, []⟩ (ops.filter (· ≠ .peek))).1 ∧
    (tokRun dict whole ⟨some start, []⟩ ops).2.pos =
      (tokRun dict whole ⟨some start, []⟩ (ops.filter (· ≠ .peek))).2.pos := by
  obtain ⟨h1, h2⟩ := C06_cache_unobservable dict whole start ops
  obtain ⟨g1, g2⟩ := C06_cache_unobservable dict whole start (ops.filter (· ≠ .peek))
  rw [h1] at h
  rw [h1, h2, g1, g2]
  clear h1 h2 g1 g2
  generalize some start = p at h
  induction ops generalizing p with
  | nil => exact ⟨rfl, rfl⟩
  | cons o os ih =>
    have hrest : Spec.noPeekFails (Spec.plainRun (readAt dict whole) (Spec.plainStep (readAt dict whole) p o).2 os).1 :=
      fun x hx hp => h x (List.mem_cons_of_mem _ hx) hp
    obtain ⟨i1, i2⟩ := ih _ hrest
    by_cases ho : o = .peek
    · subst ho
      obtain ⟨t, ht⟩ := h (.peek, (Spec.plainStep (readAt dict whole) p .peek).1) (List.mem_cons_self) rfl
      have hpos : (Spec.plainStep (readAt dict whole) p .peek).2 = p := by
        have ht' : (readAt dict whole p).1 = .ok t := by
          simpa [Spec.plainStep] using ht
        simp only [Spec.plainStep, ht']
      rw [hpos] at i1 i2
      have e : (TokOp.peek :: os).filter (· ≠ .peek) = os.filter (· ≠ .peek) := by simp
      rw [e, ← i1, ← i2]
      refine ⟨?_, ?_⟩
      · show Spec.withoutPeeks (_ :: (Spec.plainRun _ (Spec.plainStep _ p .peek).2 os).1) = _
        rw [hpos]; simp [Spec.withoutPeeks]
      · show (Spec.plainRun _ (Spec.plainStep _ p .peek).2 os).2 = _
        rw [hpos]
    · have e : (o :: os).filter (· ≠ .peek) = o :: os.filter (· ≠ .peek) := by simp [ho]
      rw [e]
      refine ⟨?_, i2⟩
      show Spec.withoutPeeks ((o, _) :: (Spec.plainRun _ (Spec.plainStep _ p o).2 os).1) =
        (o, _) :: (Spec.plainRun _ (Spec.plainStep _ p o).2 (os.filter (· ≠ .peek))).1
      rw [← i1]
      simp [Spec.withoutPeeks, ho]

example : Spec.noPeekFails (tokRun parserKeywords (b! "12 /A] obj") ⟨some 0, []⟩
    [.peek, .peek, .read, .peek, .seek 3, .read, .peek, .read, .read, .peek, .read]).1 := by
  intro x hx
  have h : (tokRun parserKeywords (b! "12 /A] obj") ⟨some 0, []⟩
    [.peek, .peek, .read, .peek, .seek 3, .read, .peek, .read, .read, .peek, .read]).1 =
    [(.peek, some (.ok ⟨.integer, b! "12"⟩)), (.peek, some (.ok ⟨.integer, b! "12"⟩)),
     (.read, some (.ok ⟨.integer, b! "12"⟩)), (.peek, some (.ok ⟨.name, b! "A"⟩)), (.seek 3, none),
     (.read, some (.ok ⟨.name, b! "A"⟩)), (.peek, some (.ok ⟨.arrayEnd, []⟩)), (.read, some (.ok ⟨.arrayEnd, []⟩)),
     (.read, some (.ok ⟨.keyword (b! "obj"), b! "obj"⟩)), (.peek, some (.ok ⟨.endOfInput, []⟩)),
     (.read, some (.ok ⟨.endOfInput, []⟩))] := by rfl
  rw [h] at hx
  simp only [List.mem_cons, List.not_mem_nil, or_false] at hx
  rcases hx with rfl | rfl | rfl | rfl | rfl | rfl | rfl | rfl | rfl | rfl | rfl <;> simp

/-- **C06**, agreement: in every state the tokenizer reaches, a peek reports what an immediate read would report. -/
theorem C06_peek_is_next_read (dict : List Bytes) (whole : Bytes) (start : Nat) (ops : List TokOp) :
    let k := (tokRun dict whole ⟨some start, []⟩ ops).2
    (tokPeek dict whole k).1 = (tokRead dict whole k).1 := by
  intro k
  have h : TokOk dict whole k :=
    (tokRun_eq (k := ⟨some start, []⟩) ⟨cacheOk_nil dict whole, List.Pairwise.nil⟩ ops).2.2
  rw [(tokPeek_eq h).1, tokRead_eq h]

/-- **C06** fails when a peek throws: the exception leaves the reader inside the bad token, and the next read
succeeds with what follows, whereas without the peek it throws. -/
theorem C06_failing_peek_counterexample :
    (tokRun parserKeywords (b! ">5 ") ⟨some 0, []⟩ [.peek, .read]).1 =
      [(.peek, some (.error .throw)), (.read, some (.ok ⟨.integer, b! "5"⟩))] ∧
    (tokRun parserKeywords (b! ">5 ") ⟨some 0, []⟩ [.read]).1 = [(.read, some (.error .throw))] := by
  constructor <;> rfl

theorem tokPeekSkip_eq {dict : List Bytes} {whole : Bytes} (start : Pos) (rw' : Bool) (f : Nat) {k k2 : Tok}
    (h : TokOk dict whole k) (h2 : TokOk dict whole k2) (hp : k2.pos = k.pos) (hs : rw' = false → k.pos = start) :
    (tokPeekSkip dict whole start rw' f k).1 = (tokReadSkip dict whole f k2).1 ∧
    (∀ t, (tokPeekSkip dict whole start rw' f k).1 = .ok t → (tokPeekSkip dict whole start rw' f k).2.pos = start) := by
  induction f generalizing k k2 rw' with
  | zero => exact ⟨rfl, fun t ht => by cases ht⟩
  | succ f ih =>
    obtain ⟨p1, p2, p3⟩ := tokPeek_eq h
    unfold tokPeekSkip tokReadSkip
    rw [tokRead_eq h2, hp]
    cases hk : tokPeek dict whole k with
    | mk r k' =>
      rw [hk] at p1 p2 p3
      dsimp only at p1 p2 p3
      rw [← p1]
      rw [← p1] at p3
      cases r with
      | error e => exact ⟨rfl, fun t ht => by cases ht⟩
      | ok t =>
        dsimp only at p3 ⊢
        split
        · rw [tokRead_eq p2, p3, ← p1]
          dsimp only
          exact ih true (k := ⟨(readAt dict whole k.pos).2, k'.cache⟩) (k2 := ⟨(readAt dict whole k.pos).2, k2.cache⟩)
            p2 h2 rfl (fun h => by cases h)
        · refine ⟨rfl, fun t ht => ?_⟩
          cases rw' with
          | true => rfl
          | false => rw [← hs rfl]; exact p3

/-- **C06**, peeking over line ends: in every state the tokenizer reaches, `PeekTokenSkip` reports what
`ReadTokenSkip` would report, and if it reports a token it leaves the position unchanged. -/
theorem C06_peek_skip (dict : List Bytes) (whole : Bytes) (start : Nat) (ops : List TokOp) (fuel : Nat) :
    let k := (tokRun dict whole ⟨some start, []⟩ ops).2
    (tokPeekSkip dict whole k.pos false fuel k).1 = (tokReadSkip dict whole fuel k).1 ∧
    (∀ t, (tokPeekSkip dict whole k.pos false fuel k).1 = .ok t →
      (tokPeekSkip dict whole k.pos false fuel k).2.pos = k.pos) := by
  intro k
  have h : TokOk dict whole k :=
    (tokRun_eq (k := ⟨some start, []⟩) ⟨cacheOk_nil dict whole, List.Pairwise.nil⟩ ops).2.2
  exact tokPeekSkip_eq k.pos false fuel h h rfl (fun _ => rfl)

example : (tokPeekSkip parserKeywords (b! "\n\r\n 7") (some 0) false 5 ⟨some 0, []⟩).1 = .ok ⟨.integer, b! "7"⟩ := by rfl

end VPdf
