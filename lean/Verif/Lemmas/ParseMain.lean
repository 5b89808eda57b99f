import Verif.Lemmas.Parse
/-
  Main induction on the derivation that a text denotes an object.
-/
namespace VPdf
open Spec

theorem boundary_append {t s y : Bytes} {c : Byte} (h : Boundary t s) (hc : isRegular c = false) :
    Boundary t (s ++ c :: y) := by
  rcases h with h | h
  · exact Or.inl h
  · right
    cases s with
    | nil => intro d hd; simp at hd; subst hd; exact (isRegular_iff _).mp hc
    | cons a s => intro d hd; exact h d (by simpa using hd)

theorem readDirect_first {e : Env} {f : Nat} {x : Bytes} {p : PObj × Bytes} (h : readDirect e f x = .ok p) :
    ∃ t r, readTokenSkip parserKeywords x = .ok (t, r) ∧ t.type ≠ .arrayEnd ∧ t.type ≠ .dictEnd := by
  cases f with
  | zero => cases h
  | succ f =>
    rw [readDirect] at h
    cases hq : readTokenSkip parserKeywords x with
    | error er => rw [hq] at h; cases h
    | ok q =>
      obtain ⟨t, r⟩ := q
      rw [hq, ok_bind] at h
      refine ⟨t, r, rfl, ?_, ?_⟩
      · intro he; simp only [he] at h; cases h
      · intro he; simp only [he] at h; cases h

theorem readArr_item {e : Env} {f : Nat} {sep x r : Bytes} {o : Obj} (acc : List Obj) (hs : Sep sep)
    (h : readDirect e f x = .ok (.direct o, r)) :
    readArr e (f + 1) (sep ++ x) acc = readArr e f r (acc ++ [o]) := by
  obtain ⟨t, r', h1, h2, -⟩ := readDirect_first h
  rw [readArr, readTokenSkip_sep _ _ _ hs, h1, ok_bind]
  simp only [show (t.type == TokType.arrayEnd) = false by simpa using h2]
  show (readDirect e f (sep ++ x) >>= _) = _
  rw [readDirect_sep e f x hs, h, ok_bind]

/-- The null object. -/
def isNull : Obj → Bool
  | .null => true
  | _ => false

theorem readDict_entry {e : Env} {f : Nat} {sep x y r : Bytes} {k : Bytes} {o : Obj} (acc : Dict) (hs : Sep sep)
    (h1 : readDirect e f x = .ok (.direct (.name k), y)) (h2 : readDirect e f y = .ok (.direct o, r)) :
    readDict e (f + 1) (sep ++ x) acc = readDict e f r
      (if isNull o then acc else match mapFind k acc with | some _ => acc | none => mapInsert k o acc) := by
  obtain ⟨t, r', g1, -, g2⟩ := readDirect_first h1
  rw [readDict, readTokenSkip_sep _ _ _ hs, g1, ok_bind]
  simp only [show (t.type == TokType.dictEnd) = false by simpa using g2]
  show (readDirect e f (sep ++ x) >>= _) = _
  rw [readDirect_sep e f x hs, h1, ok_bind]
  show (readDirect e f y >>= _) = _
  rw [h2, ok_bind]
  cases o <;> first | rfl | (cases hm : mapFind k acc <;> simp [isNull, hm])

theorem buildDict_cons (acc : Dict) (k : Bytes) (o : Obj) (es : List (Bytes × Obj)) :
    buildDict acc ((k, o) :: es) = buildDict
      (if isNull o then acc else match mapFind k acc with | some _ => acc | none => mapInsert k o acc) es := by
  cases o <;> rfl

theorem boundary_name_sep {tk x : Bytes} (h : EndsToken x) : Boundary (47 :: tk) x := Or.inr h

theorem parsesAs_name (e : Env) (n s : Bytes) (h : NameBody n s) : ParsesAs e (.name n) (47 :: s) := by
  refine parsesAs_leaf e _ _ ⟨.name, n⟩ (by simp) ?_ (by simp) (by simp) (by simp) (by simp) ?_
  · intro rest hb; exact readToken_name parserKeywords h rest (name_ends h hb)
  · intro f rest hs; rw [readDirect, hs, ok_bind]; rfl

theorem parsesAs_word (e : Env) (o : Obj) (c : Byte) (w : Bytes) (hc : isRegular c = true)
    (hn : (isNumeric c || c == 0x2B || c == 0x2D || c == 0x2E) = false) (hw : ∀ d ∈ w, isRegular d = true)
    (hk : dictFind parserKeywords (c :: w) = .keyword (c :: w)) (h1 : (c :: w) ≠ b! "stream") (h2 : (c :: w) ≠ b! "R")
    (ho : ∀ f rest, readTokenSkip parserKeywords (c :: w ++ rest) = .ok (⟨.keyword (c :: w), c :: w⟩, rest) →
      readDirect e (f + 1) (c :: w ++ rest) = .ok (.direct o, rest)) :
    ParsesAs e o (c :: w) := by
  refine parsesAs_leaf e _ _ ⟨.keyword (c :: w), c :: w⟩ (by simp) ?_ (by simp) (by simpa using h1) (by simpa using h2)
    (by simp) ho
  intro rest hb
  have hends : EndsToken rest := by
    refine ends_of_boundary (last_regular_of_all ?_) hb
    intro d hd
    rcases List.mem_cons.mp hd with rfl | hd
    · exact hc
    · exact hw d hd
  rw [readToken_keyword parserKeywords c w rest hc hn hw hends, hk]

/-- What is proved of the items of an array and their text. -/
def ItemsParse (e : Env) (l : List Obj) (s : Bytes) : Prop :=
  ∀ rest, (∀ acc f, 2 * s.length + 1 ≤ f →
      readArr e f (s ++ 93 :: rest) acc = .ok (.direct (.arr (acc ++ l)), rest)) ∧ Follow (s ++ 93 :: rest)

/-- What is proved of the entries of a dictionary and their text. -/
def EntriesParse (e : Env) (es : List (Bytes × Obj)) (s : Bytes) : Prop :=
  ∀ rest, (∀ acc f, 2 * s.length + 1 ≤ f →
      readDict e f (s ++ 62 :: 62 :: rest) acc = .ok (buildDict acc es, rest)) ∧ Follow (s ++ 62 :: 62 :: rest)

theorem parsesAs_arr (e : Env) (l : List Obj) (s : Bytes) (h : ItemsParse e l s) :
    ParsesAs e (.arr l) (91 :: (s ++ [93])) := by
  intro rest _ _
  have hs : readTokenSkip parserKeywords (91 :: (s ++ 93 :: rest)) = .ok (⟨.arrayBegin, []⟩, s ++ 93 :: rest) :=
    readTokenSkip_of_token rfl (by decide)
  have assoc : 91 :: (s ++ [93]) ++ rest = 91 :: (s ++ 93 :: rest) := by simp
  rw [assoc]
  refine ⟨?_, follow_of_token hs (by decide) (by decide) (by decide)⟩
  intro f hf
  obtain ⟨f, rfl⟩ : ∃ g, f = g + 1 := by
    cases f with
    | zero => simp at hf
    | succ g => exact ⟨g, rfl⟩
  rw [readDirect, hs, ok_bind]
  show readArr e f (s ++ 93 :: rest) [] = _
  have := (h rest).1 [] f (by simp at hf; omega)
  simpa using this

theorem parsesAs_dict (e : Env) (es d : List (Bytes × Obj)) (s : Bytes) (h : EntriesParse e es s)
    (hsort : SortedKeys d) (hval : ∀ k, valueAt k d = firstValue k es) :
    ParsesAs e (.dict d) (60 :: 60 :: (s ++ [62, 62])) := by
  intro rest _ hfol
  have hs : readTokenSkip parserKeywords (60 :: 60 :: (s ++ 62 :: 62 :: rest)) =
      .ok (⟨.dictBegin, []⟩, s ++ 62 :: 62 :: rest) := readTokenSkip_of_token rfl (by decide)
  have assoc : 60 :: 60 :: (s ++ [62, 62]) ++ rest = 60 :: 60 :: (s ++ 62 :: 62 :: rest) := by simp
  rw [assoc]
  refine ⟨?_, follow_of_token hs (by decide) (by decide) (by decide)⟩
  intro f hf
  obtain ⟨f, rfl⟩ : ∃ g, f = g + 1 := by
    cases f with
    | zero => simp at hf
    | succ g => exact ⟨g, rfl⟩
  rw [readDirect, hs, ok_bind]
  show (readDict e f (s ++ 62 :: 62 :: rest) [] >>= _) = _
  rw [(h rest).1 [] f (by simp at hf; omega), ok_bind]
  have hd : buildDict [] es = d := by
    obtain ⟨b1, b2⟩ := buildDict_spec es [] List.Pairwise.nil
    apply sorted_ext b1 hsort
    intro k; rw [b2 k, ← valueAt_eq k d, hval k]; rfl
  rw [hd]
  show readStreamPart e d rest = _
  obtain ⟨t, r, h1, h2, -⟩ := hfol
  unfold readStreamPart
  rw [h1, ok_bind]
  simp only [show (t.type == TokType.keyword (b! "stream")) = false by simpa using h2]
  rfl

theorem itemsParse_nil (e : Env) (sep : Bytes) (hs : Sep sep) : ItemsParse e [] sep := by
  intro rest
  refine ⟨?_, (follow_sep hs).mpr (follow_bracket rest)⟩
  intro acc f hf
  obtain ⟨f, rfl⟩ : ∃ g, f = g + 1 := ⟨f - 1, by omega⟩
  have ht : readTokenSkip parserKeywords (93 :: rest) = .ok (⟨.arrayEnd, []⟩, rest) :=
    readTokenSkip_of_token rfl (by decide)
  rw [readArr, readTokenSkip_sep _ _ _ hs, ht, ok_bind]
  simp; rfl

theorem itemsParse_cons (e : Env) (o : Obj) (os : List Obj) (sep t s : Bytes) (hs : Sep sep) (hd : Denotes o t)
    (hb : Boundary t s) (hp : ParsesAs e o t) (hi : ItemsParse e os s) : ItemsParse e (o :: os) (sep ++ t ++ s) := by
  intro rest
  obtain ⟨i1, i2⟩ := hi rest
  obtain ⟨d1, d2⟩ := hp (s ++ 93 :: rest) (boundary_append hb (by decide)) i2
  have assoc : sep ++ t ++ s ++ 93 :: rest = sep ++ (t ++ (s ++ 93 :: rest)) := by simp
  rw [assoc]
  refine ⟨?_, (follow_sep hs).mpr d2⟩
  intro acc f hf
  have hlt : 0 < t.length := List.length_pos_iff.mpr (denotes_ne hd)
  simp only [List.length_append] at hf
  obtain ⟨f, rfl⟩ : ∃ g, f = g + 1 := ⟨f - 1, by omega⟩
  rw [readArr_item acc hs (d1 f (by omega)), i1 _ f (by omega)]
  simp

theorem entriesParse_nil (e : Env) (sep : Bytes) (hs : Sep sep) : EntriesParse e [] sep := by
  intro rest
  refine ⟨?_, (follow_sep hs).mpr (follow_dictEnd rest)⟩
  intro acc f hf
  obtain ⟨f, rfl⟩ : ∃ g, f = g + 1 := ⟨f - 1, by omega⟩
  have ht : readTokenSkip parserKeywords (62 :: 62 :: rest) = .ok (⟨.dictEnd, []⟩, rest) :=
    readTokenSkip_of_token rfl (by decide)
  rw [readDict, readTokenSkip_sep _ _ _ hs, ht, ok_bind]
  rfl

theorem entriesParse_cons (e : Env) (k : Bytes) (o : Obj) (es : List (Bytes × Obj)) (sep1 tk sep2 t s : Bytes)
    (hs1 : Sep sep1) (hk : NameBody k tk) (hs2 : Sep sep2) (hends : EndsToken (sep2 ++ t ++ s)) (hd : Denotes o t)
    (hb : Boundary t s) (hp : ParsesAs e o t) (he : EntriesParse e es s) :
    EntriesParse e ((k, o) :: es) (sep1 ++ 47 :: tk ++ sep2 ++ t ++ s) := by
  intro rest
  obtain ⟨i1, i2⟩ := he rest
  obtain ⟨d1, d2⟩ := hp (s ++ 62 :: 62 :: rest) (boundary_append hb (by decide)) i2
  have ht := denotes_ne hd
  have hends' : EndsToken (sep2 ++ (t ++ (s ++ 62 :: 62 :: rest))) := by
    cases sep2 with
    | cons a u => intro d hd; exact hends d (by simpa using hd)
    | nil =>
      cases t with
      | nil => exact absurd rfl ht
      | cons a t => intro d hd; exact hends d (by simpa using hd)
  obtain ⟨n1, n2⟩ := parsesAs_name e k tk hk (sep2 ++ (t ++ (s ++ 62 :: 62 :: rest))) (Or.inr hends')
    ((follow_sep hs2).mpr d2)
  have assoc : sep1 ++ 47 :: tk ++ sep2 ++ t ++ s ++ 62 :: 62 :: rest =
      sep1 ++ (47 :: tk ++ (sep2 ++ (t ++ (s ++ 62 :: 62 :: rest)))) := by simp
  rw [assoc]
  refine ⟨?_, (follow_sep hs1).mpr n2⟩
  intro acc f hf
  have hlt : 0 < t.length := List.length_pos_iff.mpr ht
  simp only [List.length_append, List.length_cons] at hf
  obtain ⟨f, rfl⟩ : ∃ g, f = g + 1 := ⟨f - 1, by omega⟩
  have hv : readDirect e f (sep2 ++ (t ++ (s ++ 62 :: 62 :: rest))) = .ok (.direct o, s ++ 62 :: 62 :: rest) := by
    rw [readDirect_sep e f _ hs2]; exact d1 f (by omega)
  rw [readDict_entry acc hs1 (n1 f (by simp only [List.length_cons]; omega)) hv, i1 _ f (by omega), buildDict_cons]

theorem parsesAs_null (e : Env) : ParsesAs e .null (b! "null") := by
  refine parsesAs_word e .null _ _ (by decide) (by decide) (by decide) (by decide) (by decide) (by decide) ?_
  intro f rest hs; rw [readDirect, hs, ok_bind]; rfl

theorem parsesAs_true (e : Env) : ParsesAs e (.bool true) (b! "true") := by
  refine parsesAs_word e (.bool true) _ _ (by decide) (by decide) (by decide) (by decide) (by decide) (by decide) ?_
  intro f rest hs; rw [readDirect, hs, ok_bind]; rfl

theorem parsesAs_false (e : Env) : ParsesAs e (.bool false) (b! "false") := by
  refine parsesAs_word e (.bool false) _ _ (by decide) (by decide) (by decide) (by decide) (by decide) (by decide) ?_
  intro f rest hs; rw [readDirect, hs, ok_bind]; rfl

theorem parsesAs_real (e : Env) (m : Int) (p : Nat) (t : Bytes) (h : RealText m p t) : ParsesAs e (.real m p) t := by
  refine parsesAs_leaf e _ _ ⟨.real, t⟩ (denotes_ne (.real m p t h)) ?_ (by simp) (by simp) (by simp) (by simp) ?_
  · intro rest hb
    exact readToken_real parserKeywords h rest (ends_of_boundary (last_regular_of_all (realText_regular h)) hb)
  · intro f rest hs; rw [readDirect, hs, ok_bind]
    show (parseReal t >>= _) = _
    rw [parseReal_text h]; rfl

theorem parsesAs_lit (e : Env) (v s : Bytes) (h : LitBody 0 v s) : ParsesAs e (.lit v) (40 :: (s ++ [41])) := by
  refine parsesAs_leaf e _ _ ⟨.literalString, s⟩ (by simp) ?_ (by simp) (by simp) (by simp) (by simp) ?_
  · intro rest _
    have := readToken_lit parserKeywords h rest
    simpa using this
  · intro f rest hs; rw [readDirect, hs, ok_bind]
    show (decodeLiteral 0 s >>= _) = _
    rw [decodeLiteral_body h]; rfl

theorem parsesAs_hex (e : Env) (v s : Bytes) (h : hexBytes (hexDigitsOf s) = some v) :
    ParsesAs e (.hex v) (60 :: (s ++ [62])) := by
  refine parsesAs_leaf e _ _ ⟨.hexString, hexDigitsOf s⟩ (by simp) ?_ (by simp) (by simp) (by simp) (by simp) ?_
  · intro rest _
    have := readToken_hex parserKeywords s rest v h
    simpa using this
  · intro f rest hs; rw [readDirect, hs, ok_bind]
    show (decodeHexPairs (hexDigitsOf s) >>= _) = _
    rw [decodeHexPairs_spec _ _ h]; rfl

/-- Every text that denotes an object is parsed as that object. -/
theorem denotes_parses (e : Env) {o : Obj} {t : Bytes} (h : Denotes o t) : ParsesAs e o t :=
  Denotes.rec (motive_1 := fun o t _ => ParsesAs e o t) (motive_2 := fun l s _ => ItemsParse e l s)
    (motive_3 := fun es s _ => EntriesParse e es s)
    (parsesAs_null e) (parsesAs_true e) (parsesAs_false e)
    (fun i s h h1 h2 => parsesAs_int e i s h h1 h2)
    (fun m p s h => parsesAs_real e m p s h)
    (fun n s h => parsesAs_name e n s h)
    (fun v s h => parsesAs_lit e v s h)
    (fun v s h => parsesAs_hex e v s h)
    (fun n g sn sg sep1 sep2 h1 h2 h3 h4 h5 h6 h7 h8 => parsesAs_ref e n g sn sg sep1 sep2 h1 h2 h3 h4 h5 h6 h7 h8)
    (fun l s _ ih => parsesAs_arr e l s ih)
    (fun es d s _ h1 h2 ih => parsesAs_dict e es d s ih h1 h2)
    (fun sep hs => itemsParse_nil e sep hs)
    (fun o os sep t s hs hd _ hb ih1 ih2 => itemsParse_cons e o os sep t s hs hd hb ih1 ih2)
    (fun sep hs => entriesParse_nil e sep hs)
    (fun k o es sep1 tk sep2 t s hs1 hk hs2 hends hd _ hb ih1 ih2 =>
      entriesParse_cons e k o es sep1 tk sep2 t s hs1 hk hs2 hends hd hb ih1 ih2)
    h

end VPdf
