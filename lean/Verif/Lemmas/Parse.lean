import Verif.Lemmas.Grammar
/-
  The parser returns the object a text denotes.
-/
namespace VPdf
open Spec

theorem ok_bind {α β : Type} (a : α) (f : α → Res β) : ((Except.ok a : Res α) >>= f) = f a := rfl

/-- What may follow an object: a readable token that is not `stream` (which would turn a dictionary into a
stream) and does not complete a reference `n g R`. -/
def Follow (rest : Bytes) : Prop :=
  ∃ t r, readTokenSkip parserKeywords rest = .ok (t, r) ∧ t.type ≠ .keyword (b! "stream") ∧
    t.type ≠ .keyword (b! "R") ∧
    (t.type = .integer → (∃ i, stoll t.value = .ok i) ∧
      ∃ t2 r2, readTokenSkip parserKeywords r = .ok (t2, r2) ∧ t2.type ≠ .keyword (b! "R"))

theorem follow_of_token {x : Bytes} {t : Token} {r : Bytes} (h : readTokenSkip parserKeywords x = .ok (t, r))
    (h1 : t.type ≠ .keyword (b! "stream")) (h2 : t.type ≠ .keyword (b! "R")) (h3 : t.type ≠ .integer) : Follow x :=
  ⟨t, r, h, h1, h2, fun h => absurd h h3⟩

theorem follow_sep {sep x : Bytes} (h : Sep sep) : Follow (sep ++ x) ↔ Follow x := by
  unfold Follow; rw [readTokenSkip_sep _ _ _ h]

theorem follow_bracket (x : Bytes) : Follow (0x5D :: x) :=
  follow_of_token (t := ⟨.arrayEnd, []⟩) (readTokenSkip_of_token rfl (by decide)) (by decide) (by decide) (by decide)

theorem follow_dictEnd (x : Bytes) : Follow (0x3E :: 0x3E :: x) :=
  follow_of_token (t := ⟨.dictEnd, []⟩) (readTokenSkip_of_token rfl (by decide)) (by decide) (by decide) (by decide)

theorem follow_nil : Follow [] :=
  follow_of_token (t := ⟨.endOfInput, []⟩) (readTokenSkip_of_token rfl (by decide)) (by decide) (by decide) (by decide)

theorem readDirect_sep (e : Env) (f : Nat) {sep : Bytes} (x : Bytes) (h : Sep sep) :
    readDirect e f (sep ++ x) = readDirect e f x := by
  cases f with
  | zero => rfl
  | succ f => rw [readDirect, readDirect, readTokenSkip_sep _ _ _ h]

theorem denotes_ne {o : Obj} {t : Bytes} (h : Denotes o t) : t ≠ [] := by
  cases h with
  | null | btrue | bfalse => exact List.cons_ne_nil _ _
  | int i s h => obtain ⟨c, ds, rfl, -⟩ := intText_cons h; exact List.cons_ne_nil _ _
  | real m p s h =>
    obtain ⟨ip, fp, -, -, -, ⟨rfl, -⟩ | ⟨rfl, -⟩ | ⟨rfl, -⟩⟩ := h <;> simp
  | name | lit | hex | arr | dict => exact List.cons_ne_nil _ _
  | ref => simp

/-- A text whose last character is regular or a solidus needs a separator or delimiter behind it. -/
theorem ends_of_boundary {t rest : Bytes} (ht : ∀ u c, t = u ++ [c] → isRegular c = true ∨ c = 0x2F)
    (h : Boundary t rest) : EndsToken rest := by
  rcases h with ⟨u, d, hu, hd⟩ | h
  · exfalso
    have h1 := ht u d hu
    have : d = 41 ∨ d = 62 ∨ d = 93 := by simpa using hd
    rcases this with rfl | rfl | rfl <;> revert h1 <;> decide
  · exact h

theorem last_regular_of_all {t : Bytes} (h : ∀ c ∈ t, isRegular c = true) :
    ∀ u c, t = u ++ [c] → isRegular c = true ∨ c = 0x2F := by
  intro u c hu; exact Or.inl (h c (by simp [hu]))

theorem intText_regular {i : Int} {s : Bytes} (h : IntText i s) : ∀ c ∈ s, isRegular c = true := by
  obtain ⟨c, ds, rfl, h1, -, -, h2⟩ := intText_cons h
  have hn : ∀ c : Byte, isNumeric c = true → isRegular c = true := by apply forall_byte; decide +kernel
  intro d hd
  simp at hd
  rcases hd with rfl | hd
  · exact h1
  · exact hn d (h2 d hd)

theorem realText_regular {m : Int} {p : Nat} {s : Bytes} (h : RealText m p s) : ∀ c ∈ s, isRegular c = true := by
  have hn : ∀ c : Byte, isNumeric c = true → isRegular c = true := by apply forall_byte; decide +kernel
  obtain ⟨ip, fp, -, hd, -, h⟩ := h
  have hd' : ∀ c, c ∈ ip ∨ c ∈ fp → isRegular c = true := by
    intro c hc; exact hn c ((isDigit_iff c).mp (hd c (by simpa using hc)))
  rcases h with ⟨rfl, -⟩ | ⟨rfl, -⟩ | ⟨rfl, -⟩ <;> intro c hc <;> simp at hc
  · rcases hc with hc | rfl | hc
    · exact hd' c (Or.inl hc)
    · decide
    · exact hd' c (Or.inr hc)
  · rcases hc with rfl | hc | rfl | hc
    · decide
    · exact hd' c (Or.inl hc)
    · decide
    · exact hd' c (Or.inr hc)
  · rcases hc with rfl | hc | rfl | hc
    · decide
    · exact hd' c (Or.inl hc)
    · decide
    · exact hd' c (Or.inr hc)

theorem hexVal_regular {x : Byte} {a : Nat} (h : hexVal x = some a) : isRegular x = true := by
  have : ∀ x : Byte, ∀ a ∈ hexVal x, isRegular x = true := by apply forall_byte; decide +kernel
  exact this x a h

theorem nameBody_regular {n s : Bytes} (h : NameBody n s) : ∀ c ∈ s, isRegular c = true := by
  induction h with
  | nil => simp
  | regular c n s hc _ _ ih =>
    intro d hd
    simp at hd
    rcases hd with rfl | hd
    · cases hb : isRegular d with
      | true => rfl
      | false => exact absurd ((isRegular_iff d).mp hb) hc
    · exact ih d hd
  | code x y a b n s hx hy _ ih =>
    intro d hd
    simp at hd
    rcases hd with rfl | rfl | rfl | hd
    · decide
    · exact hexVal_regular hx
    · exact hexVal_regular hy
    · exact ih d hd

theorem name_ends {n s rest : Bytes} (h : NameBody n s) (hb : Boundary (47 :: s) rest) : EndsToken rest := by
  refine ends_of_boundary ?_ hb
  intro u c hu
  have hc : c ∈ (47 :: s : Bytes) := by rw [hu]; simp
  simp at hc
  rcases hc with rfl | hc
  · exact Or.inr rfl
  · exact Or.inl (nameBody_regular h c hc)

/-! ### dictionaries -/

theorem bytesLt_irrefl (a : Bytes) : bytesLt a a = false := by
  induction a with
  | nil => rfl
  | cons c a ih => simp [bytesLt, ih]

theorem charKey_inj {a b : Byte} (h : charKey a = charKey b) : a = b := by
  have ha := a.toNat_lt; have hb := b.toNat_lt
  unfold charKey at h
  apply UInt8.toNat_inj.mp; omega

theorem bytesLt_trans {a b c : Bytes} (h1 : bytesLt a b = true) (h2 : bytesLt b c = true) : bytesLt a c = true := by
  induction a generalizing b c with
  | nil =>
    cases b with
    | nil => simp [bytesLt] at h1
    | cons y b =>
      cases c with
      | nil => simp [bytesLt] at h2
      | cons z c => rfl
  | cons x a ih =>
    cases b with
    | nil => simp [bytesLt] at h1
    | cons y b =>
      cases c with
      | nil => simp [bytesLt] at h2
      | cons z c =>
        simp only [bytesLt] at h1 h2 ⊢
        by_cases hxy : charKey x < charKey y
        · by_cases hyz : charKey y < charKey z
          · rw [if_pos (by omega)]
          · rw [if_neg hyz] at h2
            by_cases hzy : charKey z < charKey y
            · rw [if_pos hzy] at h2; cases h2
            · rw [if_pos (by omega)]
        · rw [if_neg hxy] at h1
          by_cases hyx : charKey y < charKey x
          · rw [if_pos hyx] at h1; cases h1
          · rw [if_neg hyx] at h1
            by_cases hyz : charKey y < charKey z
            · rw [if_pos (by omega)]
            · rw [if_neg hyz] at h2
              by_cases hzy : charKey z < charKey y
              · rw [if_pos hzy] at h2; cases h2
              · rw [if_neg hzy] at h2
                rw [if_neg (by omega), if_neg (by omega)]
                exact ih h1 h2

theorem bytesLt_total (a b : Bytes) : bytesLt a b = true ∨ a = b ∨ bytesLt b a = true := by
  induction a generalizing b with
  | nil => cases b with
    | nil => exact Or.inr (Or.inl rfl)
    | cons y b => exact Or.inl rfl
  | cons x a ih =>
    cases b with
    | nil => exact Or.inr (Or.inr rfl)
    | cons y b =>
      simp only [bytesLt]
      by_cases hxy : charKey x < charKey y
      · left; rw [if_pos hxy]
      · by_cases hyx : charKey y < charKey x
        · right; right; rw [if_pos hyx]
        · have : x = y := charKey_inj (by omega)
          subst this
          rcases ih b with h | h | h
          · left; simpa using h
          · right; left; rw [h]
          · right; right; simpa using h

theorem bytesLt_ne {a b : Bytes} (h : bytesLt a b = true) : a ≠ b := by
  rintro rfl; rw [bytesLt_irrefl] at h; cases h

theorem bytesLt_asymm {a b : Bytes} (h : bytesLt a b = true) : bytesLt b a = false := by
  cases hb : bytesLt b a with
  | false => rfl
  | true => have := bytesLt_trans h hb; rw [bytesLt_irrefl] at this; cases this

section maps
variable {α : Type}

theorem mapInsert_mem {k : Bytes} {v : α} {d : List (Bytes × α)} {x : Bytes × α} (h : x ∈ mapInsert k v d) :
    x = (k, v) ∨ x ∈ d := by
  induction d with
  | nil => simp [mapInsert] at h; exact Or.inl h
  | cons a d ih =>
    obtain ⟨k', v'⟩ := a
    unfold mapInsert at h
    split at h
    · simp at h ⊢; exact h
    · split at h
      · simp at h ⊢
        rcases h with h | h
        · exact Or.inr (Or.inl h)
        · rcases ih h with h | h
          · exact Or.inl h
          · exact Or.inr (Or.inr h)
      · exact Or.inr h

theorem mapInsert_sorted {k : Bytes} {v : α} {d : List (Bytes × α)} (h : SortedKeys d) :
    SortedKeys (mapInsert k v d) := by
  induction d with
  | nil => exact List.pairwise_singleton _ _
  | cons a d ih =>
    obtain ⟨k', v'⟩ := a
    have h' := List.pairwise_cons.mp h
    unfold mapInsert
    split
    · rename_i hlt
      refine List.pairwise_cons.mpr ⟨?_, h⟩
      intro b hb
      simp at hb
      rcases hb with rfl | hb
      · exact hlt
      · exact bytesLt_trans hlt (h'.1 b hb)
    · split
      · rename_i hlt
        refine List.pairwise_cons.mpr ⟨?_, ih h'.2⟩
        intro b hb
        rcases mapInsert_mem hb with rfl | hb
        · exact hlt
        · exact h'.1 b hb
      · exact h

theorem mapFind_none_of_lt {k : Bytes} {d : List (Bytes × α)} (h : ∀ b ∈ d, bytesLt k b.1 = true) :
    mapFind k d = none := by
  induction d with
  | nil => rfl
  | cons a d ih =>
    obtain ⟨k', v'⟩ := a
    have hne := bytesLt_ne (h (k', v') (by simp))
    unfold mapFind
    rw [if_neg (by simpa using hne)]
    exact ih (fun b hb => h b (by simp [hb]))

theorem mapFind_insert {k : Bytes} {v : α} {d : List (Bytes × α)} (h : SortedKeys d) (q : Bytes) :
    mapFind q (mapInsert k v d) = if q = k then (match mapFind k d with | some w => some w | none => some v)
      else mapFind q d := by
  induction d with
  | nil =>
    simp only [mapInsert, mapFind]
    by_cases hq : q = k <;> simp [hq]
  | cons a d ih =>
    obtain ⟨k', v'⟩ := a
    have h' := List.pairwise_cons.mp h
    unfold mapInsert
    split
    · rename_i hlt
      have hn : mapFind k ((k', v') :: d) = none := by
        apply mapFind_none_of_lt
        intro b hb
        simp at hb
        rcases hb with rfl | hb
        · exact hlt
        · exact bytesLt_trans hlt (h'.1 b hb)
      rw [hn]
      rw [mapFind]
      by_cases hq : q = k
      · simp [hq]
      · rw [if_neg (by simpa using hq), if_neg hq]
    · split
      · rename_i hnlt hlt
        have hne : k ≠ k' := (bytesLt_ne hlt).symm
        have e1 : mapFind k ((k', v') :: d) = mapFind k d := by
          rw [mapFind, if_neg (by simpa using hne)]
        rw [e1, mapFind, ih h'.2, mapFind]
        by_cases hq : q = k
        · subst hq
          rw [if_neg (by simpa using hne)]; simp
        · rw [if_neg hq, if_neg hq]
      · rename_i hn1 hn2
        have hk : k = k' := by
          rcases bytesLt_total k k' with h | h | h
          · exact absurd h hn1
          · exact h
          · exact absurd h hn2
        subst hk
        rw [mapFind]
        by_cases hq : q = k <;> simp [hq, mapFind]

/-- Two sorted lists of entries with the same lookups are equal. -/
theorem sorted_ext {d d' : List (Bytes × α)} (h : SortedKeys d) (h' : SortedKeys d')
    (heq : ∀ k, mapFind k d = mapFind k d') : d = d' := by
  induction d generalizing d' with
  | nil =>
    cases d' with
    | nil => rfl
    | cons a d' =>
      obtain ⟨k, v⟩ := a
      have := heq k
      simp [mapFind] at this
  | cons a d ih =>
    obtain ⟨k, v⟩ := a
    cases d' with
    | nil => have := heq k; simp [mapFind] at this
    | cons a' d' =>
      obtain ⟨k', v'⟩ := a'
      have p := List.pairwise_cons.mp h
      have p' := List.pairwise_cons.mp h'
      have hk : k = k' := by
        rcases bytesLt_total k k' with hl | hl | hl
        · have : mapFind k ((k', v') :: d') = none := by
            apply mapFind_none_of_lt
            intro b hb
            simp at hb
            rcases hb with rfl | hb
            · exact hl
            · exact bytesLt_trans hl (p'.1 b hb)
          rw [← heq k] at this; simp [mapFind] at this
        · exact hl
        · have : mapFind k' ((k, v) :: d) = none := by
            apply mapFind_none_of_lt
            intro b hb
            simp at hb
            rcases hb with rfl | hb
            · exact hl
            · exact bytesLt_trans hl (p.1 b hb)
          rw [heq k'] at this; simp [mapFind] at this
      subst hk
      have hv : v = v' := by
        have := heq k; simp [mapFind] at this; exact this
      subst hv
      congr 1
      apply ih p.2 p'.2
      intro q
      by_cases hq : q = k
      · subst hq
        rw [mapFind_none_of_lt p.1, mapFind_none_of_lt p'.1]
      · have := heq q
        rw [mapFind, mapFind, if_neg (by simpa using hq), if_neg (by simpa using hq)] at this
        exact this

theorem mapInsert_find {k : Bytes} {v : α} {d : List (Bytes × α)} (h : SortedKeys d) (hn : mapFind k d = none)
    (q : Bytes) : mapFind q (mapInsert k v d) = if q = k then some v else mapFind q d := by
  rw [mapFind_insert h, hn]

end maps

theorem valueAt_eq (k : Bytes) (d : Dict) : valueAt k d = mapFind k d := by
  induction d with
  | nil => rfl
  | cons a d ih => obtain ⟨k', v⟩ := a; simp only [valueAt, mapFind, ih]; by_cases h : k = k' <;> simp [h]

/-! ### the main induction -/

/-- What is proved of an object and its text. -/
def ParsesAs (e : Env) (o : Obj) (t : Bytes) : Prop :=
  ∀ rest, Boundary t rest → Follow rest →
    (∀ f, 2 * t.length ≤ f → readDirect e f (t ++ rest) = .ok (.direct o, rest)) ∧ Follow (t ++ rest)

/-- A leaf: one token, from which the object is made. -/
theorem parsesAs_leaf (e : Env) (o : Obj) (t : Bytes) (tok : Token) (hne : t ≠ [])
    (htok : ∀ rest, Boundary t rest → readToken parserKeywords (t ++ rest) = .ok (tok, rest))
    (h0 : tok.type ≠ .eol) (h1 : tok.type ≠ .keyword (b! "stream")) (h2 : tok.type ≠ .keyword (b! "R"))
    (h3 : tok.type ≠ .integer)
    (hval : ∀ f rest, readTokenSkip parserKeywords (t ++ rest) = .ok (tok, rest) →
      readDirect e (f + 1) (t ++ rest) = .ok (.direct o, rest)) : ParsesAs e o t := by
  intro rest hb _
  have hs := readTokenSkip_of_token (htok rest hb) h0
  refine ⟨?_, follow_of_token hs h1 h2 h3⟩
  intro f hf
  obtain ⟨f, rfl⟩ : ∃ g, f = g + 1 := by
    cases f with
    | zero => cases t with
      | nil => exact absurd rfl hne
      | cons c t => simp at hf
    | succ g => exact ⟨g, rfl⟩
  exact hval f rest hs

theorem readReference_int (i : Int) (tok : Token) (rest : Bytes) (hi : stoll tok.value = .ok i) (hf : Follow rest) :
    readReference tok rest = .ok (.direct (.int i), rest) := by
  obtain ⟨t2, r2, h1, h2, h3, h4⟩ := hf
  unfold readReference
  rw [hi, ok_bind, h1, ok_bind]
  by_cases hint : t2.type = .integer
  · obtain ⟨⟨j, hj⟩, t3, r3, h5, h6⟩ := h4 hint
    simp only [hint, beq_self_eq_true, if_true]
    rw [hj, ok_bind, h5, ok_bind]
    simp only [show (t3.type == TokType.keyword (b! "R")) = false by simpa using h6]
    rfl
  · simp only [show (t2.type == TokType.integer) = false by simpa using hint]
    rfl

theorem parsesAs_int (e : Env) (i : Int) (s : Bytes) (h : IntText i s) (h1 : -9223372036854775808 ≤ i)
    (h2 : i ≤ 9223372036854775807) : ParsesAs e (.int i) s := by
  intro rest hb hf
  have hends := ends_of_boundary (last_regular_of_all (intText_regular h)) hb
  have hs := readTokenSkip_of_token (readToken_int parserKeywords h rest hends) (by simp)
  have hst := stoll_text h h1 h2
  constructor
  · intro f hle
    obtain ⟨f, rfl⟩ : ∃ g, f = g + 1 := by
      obtain ⟨c, ds, rfl, -⟩ := intText_cons h
      cases f with
      | zero => simp at hle
      | succ g => exact ⟨g, rfl⟩
    rw [readDirect, hs, ok_bind]
    exact readReference_int i _ rest hst hf
  · obtain ⟨t2, r2, k1, k2, k3, k4⟩ := hf
    exact ⟨_, rest, hs, by simp, by simp, fun _ => ⟨⟨i, hst⟩, t2, r2, k1, k3⟩⟩

theorem parsesAs_ref (e : Env) (n g : Nat) (sn sg sep1 sep2 : Bytes) (hn : IntText n sn) (hg : IntText g sg)
    (hs1 : Sep sep1) (hs2 : Sep sep2) (ne1 : sep1 ≠ []) (ne2 : sep2 ≠ []) (hn2 : n ≤ 9223372036854775807)
    (hg2 : g ≤ 65535) : ParsesAs e (.ref n g) (sn ++ sep1 ++ sg ++ sep2 ++ [82]) := by
  intro rest hb _
  have hends : EndsToken rest := by
    refine ends_of_boundary ?_ hb
    intro u c hu
    have := congrArg List.getLast? hu
    simp at this
    subst this; left; decide
  have e1 : readTokenSkip parserKeywords (sn ++ (sep1 ++ (sg ++ (sep2 ++ 82 :: rest)))) =
      .ok (⟨.integer, sn⟩, sep1 ++ (sg ++ (sep2 ++ 82 :: rest))) :=
    readTokenSkip_of_token (readToken_int parserKeywords hn _ (sep_ends _ _ hs1 ne1)) (by simp)
  have e2 : readTokenSkip parserKeywords (sep1 ++ (sg ++ (sep2 ++ 82 :: rest))) =
      .ok (⟨.integer, sg⟩, sep2 ++ 82 :: rest) := by
    rw [readTokenSkip_sep _ _ _ hs1]
    exact readTokenSkip_of_token (readToken_int parserKeywords hg _ (sep_ends _ _ hs2 ne2)) (by simp)
  have e3 : readTokenSkip parserKeywords (sep2 ++ 82 :: rest) = .ok (⟨.keyword (b! "R"), b! "R"⟩, rest) := by
    rw [readTokenSkip_sep _ _ _ hs2]
    refine readTokenSkip_of_token ?_ (by simp)
    exact readToken_keyword parserKeywords 82 [] rest (by decide) (by decide) (by simp) hends
  have st1 := stoll_text hn (by omega) (by omega)
  have st2 := stoll_text hg (by omega) (by omega)
  have assoc : (sn ++ sep1 ++ sg ++ sep2 ++ [82]) ++ rest = sn ++ (sep1 ++ (sg ++ (sep2 ++ 82 :: rest))) := by simp
  rw [assoc]
  constructor
  · intro f hle
    obtain ⟨f, rfl⟩ : ∃ g, f = g + 1 := by
      cases f with
      | zero => simp at hle
      | succ g => exact ⟨g, rfl⟩
    rw [readDirect, e1, ok_bind]
    show readReference ⟨.integer, sn⟩ _ = _
    unfold readReference
    rw [st1, ok_bind, e2, ok_bind]
    simp only [beq_self_eq_true, if_true]
    rw [st2, ok_bind, e3, ok_bind]
    simp only [beq_self_eq_true, if_true]
    rw [if_pos (by omega)]; rfl
  · exact ⟨_, _, e1, by simp, by simp, fun _ => ⟨⟨_, st1⟩, _, _, e2, by simp⟩⟩

/-- The dictionary built from entries in text order: the first value that is not null wins. -/
def buildDict (acc : Dict) : List (Bytes × Obj) → Dict
  | [] => acc
  | (_, .null) :: es => buildDict acc es
  | (k, o) :: es => buildDict (match mapFind k acc with | some _ => acc | none => mapInsert k o acc) es

theorem buildDict_spec (es : List (Bytes × Obj)) (acc : Dict) (h : SortedKeys acc) :
    SortedKeys (buildDict acc es) ∧ ∀ k, mapFind k (buildDict acc es) =
      (match mapFind k acc with | some v => some v | none => firstValue k es) := by
  induction es generalizing acc with
  | nil =>
    refine ⟨h, fun k => ?_⟩
    simp only [buildDict, firstValue]; cases mapFind k acc <;> rfl
  | cons a es ih =>
    obtain ⟨k', o⟩ := a
    by_cases ho : o = .null
    · subst ho; exact ih acc h
    · have e1 : buildDict acc ((k', o) :: es) =
          buildDict (match mapFind k' acc with | some _ => acc | none => mapInsert k' o acc) es := by
        cases o <;> first | rfl | exact absurd rfl ho
      have e2 : ∀ k, firstValue k ((k', o) :: es) = if k = k' then some o else firstValue k es := by
        intro k; cases o <;> first | rfl | exact absurd rfl ho
      rw [e1]
      cases hf : mapFind k' acc with
      | some w =>
        obtain ⟨i1, i2⟩ := ih acc h
        refine ⟨i1, fun k => ?_⟩
        rw [i2 k, e2 k]
        by_cases hk : k = k'
        · subst hk; rw [hf]
        · rw [if_neg hk]
      | none =>
        obtain ⟨i1, i2⟩ := ih (mapInsert k' o acc) (mapInsert_sorted h)
        refine ⟨i1, fun k => ?_⟩
        rw [i2 k, e2 k, mapInsert_find h hf]
        by_cases hk : k = k'
        · subst hk; rw [hf]; simp
        · rw [if_neg hk, if_neg hk]

end VPdf
