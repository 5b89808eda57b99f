import Verif.Spec.CharMap
import Verif.Lemmas.WriteObject
/-
  Reading of character maps.
-/
namespace VPdf
open Spec

/-! ### Tokens -/

/-- What the words of character maps have in common. -/
def plainWord (w : Bytes) : Bool :=
  !w.isEmpty && w.all isRegular &&
    w.head?.all (fun c => !(isNumeric c || c == 0x2B || c == 0x2D || c == 0x2E))

theorem readTokenSkip_word (dict : List Bytes) {w : Bytes} (h : plainWord w = true) (rest : Bytes) (hr : EndsToken rest) :
    readTokenSkip dict (w ++ rest) = .ok (⟨dictFind dict w, w⟩, rest) := by
  cases w with
  | nil => simp [plainWord] at h
  | cons c w =>
    simp only [plainWord, Bool.and_eq_true, List.all_cons, List.head?_cons, Option.all_some, List.all_eq_true] at h
    obtain ⟨⟨-, h1, h2⟩, h3⟩ := h
    refine readTokenSkip_of_token (readToken_keyword dict c w rest h1 (by simpa using h3) h2 hr) ?_
    show dictFind dict (c :: w) ≠ _
    unfold dictFind; split <;> simp

theorem expectWord_text {w : Bytes} (h : plainWord w = true) (hk : cmapKeywords.contains w = true) {sep : Bytes} (hs : Sep sep)
    (rest : Bytes) (hr : EndsToken rest) : expectWord w (sep ++ (w ++ rest)) = .ok rest := by
  unfold expectWord expectSkip
  rw [readTokenSkip_sep _ _ _ hs, readTokenSkip_word _ h rest hr, ok_bind]
  have : dictFind cmapKeywords w = .keyword w := by unfold dictFind; rw [if_pos hk]
  simp only [this, beq_self_eq_true, if_true]
  rfl

theorem hex_shape {a t : Bytes} (h : Denotes (.hex a) t) :
    ∃ s, t = 60 :: (s ++ [62]) ∧ hexBytes (hexDigitsOf s) = some a := by
  cases h with
  | hex _ s h => exact ⟨s, rfl, h⟩

theorem hexToken (dict : List Bytes) {a t : Bytes} (h : Denotes (.hex a) t) {sep : Bytes} (hs : Sep sep) (rest : Bytes) :
    ∃ v, readTokenSkip dict (sep ++ (t ++ rest)) = .ok (⟨.hexString, v⟩, rest) ∧ decodeHexPairs v = .ok a := by
  obtain ⟨s, rfl, h'⟩ := hex_shape h
  refine ⟨hexDigitsOf s, ?_, decodeHexPairs_spec _ _ h'⟩
  rw [readTokenSkip_sep _ _ _ hs]
  have : 60 :: (s ++ [62]) ++ rest = 60 :: (s ++ 62 :: rest) := by simp
  rw [this]
  exact readTokenSkip_of_token (readToken_hex dict s rest a h') (by simp)

theorem readHexadecimal_text {a t : Bytes} (h : Denotes (.hex a) t) {sep : Bytes} (hs : Sep sep) (rest : Bytes) :
    readHexadecimal (sep ++ (t ++ rest)) = .ok (a, rest) := by
  obtain ⟨v, h1, h2⟩ := hexToken cmapKeywords h hs rest
  unfold readHexadecimal expectSkip
  rw [h1, ok_bind]
  show (decodeHexPairs v >>= _) = _
  rw [h2]; rfl

/-- Something else than a hexadecimal string where one is expected. -/
theorem readHexadecimal_other {s r : Bytes} {t : Token} (h : readTokenSkip cmapKeywords s = .ok (t, r)) (ht : t.type ≠ .hexString) :
    readHexadecimal s = .error .throw := by
  unfold readHexadecimal expectSkip
  rw [h, ok_bind]
  simp only [show (t.type == TokType.hexString) = false by simpa using ht]
  rfl

/-! ### Sections -/

theorem readPairs_text {w : Bytes} {l : List (Bytes × Bytes)} {u : Bytes} (h : CodePairsText w l u) (rest : Bytes) :
    ∃ sep, Sep sep ∧ readPairs l.length (u ++ rest) = .ok (l, sep ++ (w ++ rest)) := by
  induction h with
  | done sep hs => exact ⟨sep, hs, by rw [List.append_assoc]; rfl⟩
  | cons a b l sep1 ta sep2 tb s h1 ha h2 hb _ ih =>
    obtain ⟨sep, hs, e⟩ := ih
    refine ⟨sep, hs, ?_⟩
    have assoc : sep1 ++ ta ++ sep2 ++ tb ++ s ++ rest = sep1 ++ (ta ++ (sep2 ++ (tb ++ (s ++ rest)))) := by simp
    rw [List.length_cons, readPairs, assoc, readHexadecimal_text ha h1, ok_bind]
    dsimp only
    rw [readHexadecimal_text hb h2, ok_bind]
    dsimp only
    rw [e]; rfl

/-- A hexadecimal string may follow any object. -/
theorem follow_hex {a t : Bytes} (h : Denotes (.hex a) t) {sep : Bytes} (hs : Sep sep) (rest : Bytes) : Follow (sep ++ (t ++ rest)) := by
  obtain ⟨v, h1, -⟩ := hexToken parserKeywords h hs rest
  exact follow_of_token h1 (by simp) (by simp) (by simp)

theorem follow_word {w : Bytes} (h : plainWord w = true) (h1 : w ≠ b! "stream") (h2 : w ≠ b! "R") {sep : Bytes} (hs : Sep sep)
    (rest : Bytes) (hr : EndsToken rest) : Follow (sep ++ (w ++ rest)) := by
  rw [follow_sep hs]
  refine follow_of_token (readTokenSkip_word _ h rest hr) ?_ ?_ ?_
  all_goals (show dictFind parserKeywords w ≠ _; unfold dictFind; split <;> simp_all)

theorem boundary_extend {t s : Bytes} (rest : Bytes) (hs : s ≠ []) (h : Boundary t s) : Boundary t (s ++ rest) := by
  rcases h with h | h
  · exact Or.inl h
  · refine Or.inr ?_
    cases s with
    | nil => exact absurd rfl hs
    | cons c s => intro d hd; exact h d (by simpa using hd)

theorem rangesText_follow {w : Bytes} (h : plainWord w = true) (h1 : w ≠ b! "stream") (h2 : w ≠ b! "R") {l : List FontRange}
    {u : Bytes} (hu : RangesText w l u) (rest : Bytes) (hr : EndsToken rest) : Follow (u ++ rest) := by
  cases hu with
  | done sep hs => rw [List.append_assoc]; exact follow_word h h1 h2 hs rest hr
  | cons a b o l sep1 ta sep2 tb sep3 t s g1 ha =>
    have assoc : sep1 ++ ta ++ sep2 ++ tb ++ sep3 ++ t ++ s ++ rest =
      sep1 ++ (ta ++ (sep2 ++ (tb ++ (sep3 ++ (t ++ (s ++ rest)))))) := by simp
    rw [assoc]
    exact follow_hex ha g1 _

theorem rangesText_ne {w : Bytes} (h : plainWord w = true) {l : List FontRange} {u : Bytes} (hu : RangesText w l u) : u ≠ [] := by
  cases hu with
  | done sep hs =>
    cases w with
    | nil => simp [plainWord] at h
    | cons c w => simp
  | cons a b o l sep1 ta sep2 tb sep3 t s g1 ha =>
    obtain ⟨x, rfl, -⟩ := hex_shape ha
    simp

theorem parse_text (e : Env) {o : Obj} {t : Bytes} (h : Denotes o t) {sep : Bytes} (hs : Sep sep) (rest : Bytes) (hb : Boundary t rest)
    (hf : Follow rest) : parse e (sep ++ (t ++ rest)) = .ok (.direct o, rest) := by
  unfold parse
  rw [readDirect_sep e _ _ hs]
  exact (denotes_parses e h rest hb hf).1 _ (by simp only [List.length_append]; omega)

theorem readRanges_text (e : Env) {w : Bytes} (h : plainWord w = true) (h1 : w ≠ b! "stream") (h2 : w ≠ b! "R") {l : List FontRange}
    {u : Bytes} (hu : RangesText w l u) (rest : Bytes) (hr : EndsToken rest) :
    ∃ sep, Sep sep ∧ readRanges e l.length (u ++ rest) = .ok (l, sep ++ (w ++ rest)) := by
  induction hu with
  | done sep hs => exact ⟨sep, hs, by rw [List.append_assoc]; rfl⟩
  | cons a b o l sep1 ta sep2 tb sep3 t s g1 ha g2 hb g3 ho hbd hl ih =>
    obtain ⟨sep, hs, e'⟩ := ih
    refine ⟨sep, hs, ?_⟩
    have assoc : sep1 ++ ta ++ sep2 ++ tb ++ sep3 ++ t ++ s ++ rest =
      sep1 ++ (ta ++ (sep2 ++ (tb ++ (sep3 ++ (t ++ (s ++ rest)))))) := by simp
    rw [List.length_cons, readRanges, assoc, readHexadecimal_text ha g1, ok_bind]
    dsimp only
    rw [readHexadecimal_text hb g2, ok_bind]
    dsimp only
    rw [parse_text e ho g3 _ (boundary_extend rest (rangesText_ne h hl) hbd) (rangesText_follow h h1 h2 hl rest hr), ok_bind]
    dsimp only
    rw [e']; rfl

/-- The two tokens at the beginning of a section. -/
theorem section_tokens {n : Nat} {w u t sep : Bytes} (hs : Sep sep) (h : SectionText n w u t) (hw : plainWord w = true)
    (hk : cmapKeywords.contains w = true) (rest : Bytes) (hu : u ≠ []) :
    ∃ tn r, readTokenSkip cmapKeywords (sep ++ (t ++ rest)) = .ok (⟨.integer, tn⟩, r) ∧ stoll tn = .ok (n : Int) ∧
      readTokenSkip cmapKeywords r = .ok (⟨.keyword w, w⟩, u ++ rest) := by
  obtain ⟨tn, sep2, h1, h2, h3, h4, h5, rfl⟩ := h
  refine ⟨tn, sep2 ++ (w ++ (u ++ rest)), ?_, stoll_text h1 (by omega) (by omega), ?_⟩
  · rw [readTokenSkip_sep _ _ _ hs]
    have assoc : tn ++ sep2 ++ w ++ u ++ rest = tn ++ (sep2 ++ (w ++ (u ++ rest))) := by simp
    rw [assoc]
    exact readTokenSkip_of_token (readToken_int _ h1 _ (sep_ends _ _ h3 h4)) (by simp)
  · have he : EndsToken (u ++ rest) := by
      cases u with
      | nil => exact absurd rfl hu
      | cons c u => intro d hd; exact h5 d (by simpa using hd)
    rw [readTokenSkip_sep _ _ _ h3, readTokenSkip_word _ hw _ he]
    have : dictFind cmapKeywords w = .keyword w := by unfold dictFind; rw [if_pos hk]
    rw [this]

/-! ### The whole map -/

/-- What a map denoted by the rest of the text adds to what has been read. -/
def addMap (a m : CMapData) : CMapData where
  systemInfo := m.systemInfo <|> a.systemInfo
  name := m.name <|> a.name
  type := m.type <|> a.type
  codeSpace := a.codeSpace ++ m.codeSpace
  bfRanges := a.bfRanges ++ m.bfRanges
  bfChars := a.bfChars ++ m.bfChars
  notdefRanges := a.notdefRanges ++ m.notdefRanges
  notdefChars := a.notdefChars ++ m.notdefChars
  cidRanges := a.cidRanges ++ m.cidRanges
  cidChars := a.cidChars ++ m.cidChars

theorem addMap_nil (m : CMapData) : addMap {} m = m := by
  obtain ⟨a, b, c, _⟩ := m
  unfold addMap
  cases a <;> cases b <;> cases c <;> rfl

theorem addMap_empty (m : CMapData) : addMap m {} = m := by
  obtain ⟨a, b, c, _⟩ := m
  unfold addMap
  simp

/-- One token that begins neither a section nor a definition. -/
def skipToken (t : Token) : Bool :=
  match t.type with
  | .endOfInput => false
  | .name => !definedNames.contains t.value
  | _ => true

theorem readMapSection_none (e : Env) (m : CMapData) (n w s : Bytes) (h : w ∉ sectionWords) : readMapSection e m n w s = none := by
  simp only [sectionWords, List.mem_cons, List.not_mem_nil, or_false, not_or] at h
  obtain ⟨h1, h2, h3, h4, h5, h6, h7⟩ := h
  unfold readMapSection
  rw [if_neg h1, if_neg h2, if_neg h3, if_neg h4, if_neg h5, if_neg h6, if_neg h7]

theorem readCMapN_skip (e : Env) (f : Nat) {s r ra : Bytes} {t a : Token} (m : CMapData)
    (h1 : readTokenSkip cmapKeywords s = .ok (t, r)) (h2 : readTokenSkip cmapKeywords r = .ok (a, ra))
    (ht : skipToken t = true) (ha : ∀ w ∈ sectionWords, a.type ≠ .keyword w) :
    readCMapN e (f + 1) s m = readCMapN e f r m := by
  rw [readCMapN, h1, ok_bind]
  dsimp only
  rw [h2, ok_bind]
  obtain ⟨ty, v⟩ := t
  dsimp only
  unfold skipToken at ht
  dsimp only at ht
  cases ty <;> try rfl
  · cases ht
  · -- a name
    simp [definedNames] at ht
    obtain ⟨g1, g2, g3⟩ := ht
    dsimp only
    unfold readDefinition
    rw [if_neg g1, if_neg g2, if_neg g3]; rfl
  · -- an integer
    dsimp only
    cases hty : a.type with
    | keyword w =>
      dsimp only
      rw [readMapSection_none e m v w ra (fun hw => ha w hw hty)]
    | _ => rfl

theorem sectionKeyword {w : Bytes} (h : w ∈ sectionWords) : plainWord w = true ∧ cmapKeywords.contains w = true := by
  revert w; decide

/-- What is known of the first token behind a part of the map. -/
def Ahead (s : Bytes) : Prop :=
  ∃ a r, readTokenSkip cmapKeywords s = .ok (a, r) ∧ ∀ w ∈ sectionWords, a.type ≠ .keyword w

theorem ahead_of {s r : Bytes} {t : Token} (h : readTokenSkip cmapKeywords s = .ok (t, r)) (ht : ∀ w, t.type ≠ .keyword w) : Ahead s :=
  ⟨t, r, h, fun w _ => ht w⟩

theorem plainWord_of {w : Bytes} (h1 : w ≠ []) (h2 : ∀ c ∈ w, c ∉ whiteSpace ++ delimiters)
    (h3 : ∀ c ∈ w.head?, ¬ IsDigit c ∧ c ≠ 43 ∧ c ≠ 45 ∧ c ≠ 46) : plainWord w = true := by
  have hreg : ∀ c : Byte, c ∉ whiteSpace ++ delimiters → isRegular c = true := by apply forall_byte; decide +kernel
  unfold plainWord
  rw [Bool.and_eq_true, Bool.and_eq_true]
  refine ⟨⟨by simpa using h1, by rw [List.all_eq_true]; exact fun c hc => hreg c (h2 c hc)⟩, ?_⟩
  cases w with
  | nil => rfl
  | cons c w =>
    obtain ⟨g1, g2, g3, g4⟩ := h3 c rfl
    rw [isDigit_iff] at g1
    simp_all

/-- The token of a part that is skipped. -/
theorem otherToken_token {t sep : Bytes} (h : OtherToken t) (hs : Sep sep) (rest : Bytes) (hb : Boundary t rest) :
    ∃ tok, readTokenSkip cmapKeywords (sep ++ (t ++ rest)) = .ok (tok, rest) ∧ skipToken tok = true ∧
      ∀ w ∈ sectionWords, tok.type ≠ .keyword w := by
  rw [readTokenSkip_sep _ _ _ hs]
  cases h with
  | word _ h1 h2 h3 h4 =>
    have hw := plainWord_of h1 h2 h3
    have hends : EndsToken rest := by
      refine ends_of_boundary (last_regular_of_all ?_) hb
      have : ∀ c : Byte, c ∉ whiteSpace ++ delimiters → isRegular c = true := by apply forall_byte; decide +kernel
      exact fun c hc => this c (h2 c hc)
    refine ⟨_, readTokenSkip_word _ hw _ hends, ?_, ?_⟩
    · unfold skipToken dictFind; dsimp only; split <;> first | rfl | (split at * <;> simp_all)
    · intro w hw' he
      have he : dictFind cmapKeywords t = .keyword w := he
      unfold dictFind at he
      split at he
      · cases he; exact h4 hw'
      · cases he
  | int i _ h =>
    have hends := ends_of_boundary (last_regular_of_all (intText_regular h)) hb
    exact ⟨_, readTokenSkip_of_token (readToken_int _ h _ hends) (by simp), rfl, by simp⟩
  | real m p _ h =>
    have hends := ends_of_boundary (last_regular_of_all (realText_regular h)) hb
    exact ⟨_, readTokenSkip_of_token (readToken_real _ h _ hends) (by simp), rfl, by simp⟩
  | name n _ h hn =>
    have hends := name_ends h hb
    refine ⟨_, readTokenSkip_of_token (readToken_name _ h _ hends) (by simp), ?_, by simp⟩
    unfold skipToken; dsimp only; simpa using hn
  | lit v _ h =>
    cases h with
    | lit _ s h =>
      have assoc : 40 :: (s ++ [41]) ++ rest = 40 :: (s ++ 41 :: rest) := by simp
      rw [assoc]
      exact ⟨_, readTokenSkip_of_token (readToken_lit _ h _) (by simp), rfl, by simp⟩
  | hex v _ h =>
    obtain ⟨v, h1, -⟩ := hexToken cmapKeywords h .nil rest
    exact ⟨_, h1, rfl, by simp⟩

theorem bracket_token {t sep : Bytes} (h : t ∈ brackets) (hs : Sep sep) (rest : Bytes) :
    ∃ tok, readTokenSkip cmapKeywords (sep ++ (t ++ rest)) = .ok (tok, rest) ∧ skipToken tok = true ∧
      ∀ w ∈ sectionWords, tok.type ≠ .keyword w := by
  rw [readTokenSkip_sep _ _ _ hs]
  simp only [brackets, List.mem_cons, List.not_mem_nil, or_false] at h
  rcases h with rfl | rfl | rfl | rfl
  · exact ⟨⟨.arrayBegin, []⟩, readTokenSkip_of_token rfl (by decide), rfl, by simp⟩
  · exact ⟨⟨.arrayEnd, []⟩, readTokenSkip_of_token rfl (by decide), rfl, by simp⟩
  · exact ⟨⟨.dictBegin, []⟩, readTokenSkip_of_token rfl (by decide), rfl, by simp⟩
  · exact ⟨⟨.dictEnd, []⟩, readTokenSkip_of_token rfl (by decide), rfl, by simp⟩

theorem nameToken {n tk sep : Bytes} (h : NameBody n tk) (hs : Sep sep) (rest : Bytes) (hr : EndsToken rest) :
    readTokenSkip cmapKeywords (sep ++ (47 :: (tk ++ rest))) = .ok (⟨.name, n⟩, rest) := by
  rw [readTokenSkip_sep _ _ _ hs]
  exact readTokenSkip_of_token (readToken_name _ h _ hr) (by simp)

theorem intToken {i : Int} {ti sep : Bytes} (h : IntText i ti) (hs : Sep sep) (rest : Bytes) (hr : EndsToken rest) :
    readTokenSkip cmapKeywords (sep ++ (ti ++ rest)) = .ok (⟨.integer, ti⟩, rest) := by
  rw [readTokenSkip_sep _ _ _ hs]
  exact readTokenSkip_of_token (readToken_int _ h _ hr) (by simp)

theorem section_ahead {n : Nat} {w u t sep : Bytes} (hs : Sep sep) (h : SectionText n w u t) (rest : Bytes) :
    Ahead (sep ++ t ++ rest) := by
  obtain ⟨tn, sep2, h1, h2, h3, h4, h5, rfl⟩ := h
  have assoc : sep ++ (tn ++ sep2 ++ w ++ u) ++ rest = sep ++ (tn ++ (sep2 ++ (w ++ (u ++ rest)))) := by simp
  rw [assoc]
  exact ahead_of (intToken h1 hs _ (sep_ends _ _ h3 h4)) (by simp)

theorem name_ahead {n tk sep rest : Bytes} (h : NameBody n tk) (hs : Sep sep) (hr : EndsToken rest) :
    Ahead (sep ++ 47 :: tk ++ rest) := by
  rw [show sep ++ 47 :: tk ++ rest = sep ++ (47 :: (tk ++ rest)) by simp]
  exact ahead_of (nameToken h hs _ hr) (by simp)

theorem ends_delim (c : Byte) (x : Bytes) (h : c ∈ whiteSpace ++ delimiters) {sep : Bytes} (hs : Sep sep) : EndsToken (sep ++ c :: x) := by
  by_cases he : sep = []
  · subst he; intro d hd; cases hd; exact h
  · exact sep_ends _ _ hs he

theorem ahead_nil : Ahead [] := ahead_of (t := ⟨.endOfInput, []⟩) (r := []) (readTokenSkip_of_token rfl (by decide)) (by simp)

theorem mapText_ahead {tail : Bytes} (ht : Ahead tail) {m : CMapData} {s : Bytes} (h : MapText tail m s) : Ahead s := by
  cases h with
  | done _ hs => unfold Ahead; rw [readTokenSkip_sep _ _ _ hs]; exact ht
  | other _ sep t s hs ho hb _ =>
    obtain ⟨tok, h1, -, h3⟩ := otherToken_token ho hs s hb
    rw [List.append_assoc]; exact ⟨tok, s, h1, h3⟩
  | bracket _ sep t s hs ho _ =>
    obtain ⟨tok, h1, -, h3⟩ := bracket_token ho hs s
    rw [List.append_assoc]; exact ⟨tok, s, h1, h3⟩
  | codeSpace _ _ _ _ _ _ hs _ h => exact section_ahead hs h _
  | bfRange _ _ _ _ _ _ hs _ h => exact section_ahead hs h _
  | bfChar _ _ _ _ _ _ hs _ h => exact section_ahead hs h _
  | notdefRange _ _ _ _ _ _ hs _ h => exact section_ahead hs h _
  | notdefChar _ _ _ _ _ _ hs _ h => exact section_ahead hs h _
  | cidChar _ _ _ _ _ _ hs _ h => exact section_ahead hs h _
  | cidRange _ _ _ _ _ _ hs _ h => exact section_ahead hs h _
  | systemInfo m es d x sep tk sep1 t sep2 s hs hk hs1 =>
    have := name_ahead (rest := sep1 ++ (60 :: (60 :: (t ++ [62, 62]) ++ sep2 ++ b! "def" ++ s))) hk hs (ends_delim _ _ (by decide) hs1)
    simpa using this
  | mapName m n sep tk sep1 tn sep2 s hs hk hs1 =>
    have := name_ahead (rest := sep1 ++ (47 :: (tn ++ sep2 ++ b! "def" ++ s))) hk hs (ends_delim _ _ (by decide) hs1)
    simpa using this
  | mapType m i sep tk sep1 ti sep2 s hs hk hs1 hne =>
    have := name_ahead (rest := sep1 ++ (ti ++ sep2 ++ b! "def" ++ s)) hk hs (sep_ends _ _ hs1 hne)
    simpa using this

theorem codePairsText_ne {w : Bytes} (h : plainWord w = true) {l : List (Bytes × Bytes)} {u : Bytes} (hu : CodePairsText w l u) : u ≠ [] := by
  cases hu with
  | done sep hs =>
    cases w with
    | nil => simp [plainWord] at h
    | cons c w => simp
  | cons a b l sep1 ta sep2 tb s g1 ha =>
    obtain ⟨x, rfl, -⟩ := hex_shape ha
    simp

/-- A section is read by `readMapSection`. -/
theorem readCMapN_section (e : Env) (f : Nat) {n : Nat} {w u t sep : Bytes} (acc : CMapData) (hs : Sep sep) (h : SectionText n w u t)
    (hw : w ∈ sectionWords) (rest : Bytes) (hu : u ≠ []) :
    ∃ tn, stoll tn = .ok (n : Int) ∧ readCMapN e (f + 1) (sep ++ (t ++ rest)) acc =
      match readMapSection e acc tn w (u ++ rest) with
      | some x => x >>= fun p => readCMapN e f p.2 p.1
      | none => readCMapN e f (u ++ rest) acc := by
  obtain ⟨tn, r, h1, h2, h3⟩ := section_tokens hs h (sectionKeyword hw).1 (sectionKeyword hw).2 rest hu
  refine ⟨tn, h2, ?_⟩
  rw [readCMapN, h1, ok_bind]
  dsimp only
  rw [h3, ok_bind]
  dsimp only
  cases hq : readMapSection e acc tn w (u ++ rest) with
  | some x => rfl
  | none =>
    exfalso
    simp only [sectionWords, List.mem_cons, List.not_mem_nil, or_false] at hw
    rcases hw with rfl | rfl | rfl | rfl | rfl | rfl | rfl <;> cases hq

theorem sectionText_pos {n : Nat} {w u t : Bytes} (h : SectionText n w u t) (hw : w ≠ []) : 0 < t.length := by
  obtain ⟨tn, sep2, h1, h2, h3, h4, h5, rfl⟩ := h
  have := List.length_pos_iff.mpr hw
  simp only [List.length_append]; omega

theorem readCMapN_name (e : Env) (f : Nat) {s r ra n : Bytes} {a : Token} (m : CMapData)
    (h1 : readTokenSkip cmapKeywords s = .ok (⟨.name, n⟩, r)) (h2 : readTokenSkip cmapKeywords r = .ok (a, ra)) :
    readCMapN e (f + 1) s m = readDefinition e m n r >>= fun p => readCMapN e f p.2 p.1 := by
  rw [readCMapN, h1, ok_bind]
  dsimp only
  rw [h2, ok_bind]

theorem readDict_text (e : Env) {es : List (Bytes × Obj)} {d : Dict} {t : Bytes} (h : Entries es t) (hsort : SortedKeys d)
    (hval : ∀ k, valueAt k d = firstValue k es) (rest : Bytes) (f : Nat) (hf : 2 * t.length + 1 ≤ f) :
    readDict e f (t ++ 62 :: 62 :: rest) [] = .ok (d, rest) := by
  rw [((entries_parse e h) rest).1 [] f hf]
  obtain ⟨b1, b2⟩ := buildDict_spec es [] List.Pairwise.nil
  have : buildDict [] es = d := by
    apply sorted_ext b1 hsort
    intro k
    rw [b2, ← valueAt_eq k d, hval]; rfl
  rw [this]

theorem findString_text {k : Bytes} {d : Dict} {o : Obj} (h : valueAt k d = some o) (ho : ∃ v, o = .lit v ∨ o = .hex v) :
    findString k d = .ok o := by
  unfold findString
  rw [← valueAt_eq, h]
  obtain ⟨v, rfl | rfl⟩ := ho <;> rfl

theorem findInteger_text {k : Bytes} {d : Dict} {i : Int} (h : valueAt k d = some (.int i)) : findInteger k d = .ok i := by
  unfold findInteger
  rw [← valueAt_eq, h]

theorem readCMapN_text (e : Env) {tail : Bytes} (ht : Ahead tail) {m : CMapData} {s : Bytes} (h : MapText tail m s) :
    ∀ (f : Nat) (acc : CMapData), s.length < f →
      ∃ g sep, Sep sep ∧ (sep ++ tail).length < g ∧ readCMapN e f s acc = readCMapN e g (sep ++ tail) (addMap acc m) := by
  induction h with
  | done sep hs =>
    intro f acc hf
    exact ⟨f, sep, hs, hf, by rw [addMap_empty]⟩
  | other m sep t s hs ho hb hm ih =>
    intro f acc hf
    obtain ⟨tok, h1, h2, -⟩ := otherToken_token ho hs s hb
    obtain ⟨a, ra, h3, h4⟩ := mapText_ahead ht hm
    have hlt := (readTokenSkip_progress h1).2.2 (by
      intro he; unfold skipToken at h2; rw [he] at h2; cases h2)
    obtain ⟨f, rfl⟩ : ∃ g, f = g + 1 := ⟨f - 1, by omega⟩
    rw [List.append_assoc] at hf ⊢
    rw [readCMapN_skip e f acc h1 h3 h2 h4]
    exact ih f acc (by omega)
  | bracket m sep t s hs ho hm ih =>
    intro f acc hf
    obtain ⟨tok, h1, h2, -⟩ := bracket_token ho hs s
    obtain ⟨a, ra, h3, h4⟩ := mapText_ahead ht hm
    have hlt := (readTokenSkip_progress h1).2.2 (by
      intro he; unfold skipToken at h2; rw [he] at h2; cases h2)
    obtain ⟨f, rfl⟩ : ∃ g, f = g + 1 := ⟨f - 1, by omega⟩
    rw [List.append_assoc] at hf ⊢
    rw [readCMapN_skip e f acc h1 h3 h2 h4]
    exact ih f acc (by omega)
  | codeSpace m l sep u t s hs hu h hr hm ih =>
    intro f acc hf
    have hpos := sectionText_pos h (by decide)
    simp only [List.length_append] at hf
    obtain ⟨f, rfl⟩ : ∃ g, f = g + 1 := ⟨f - 1, by omega⟩
    rw [List.append_assoc]
    obtain ⟨tn, h2, h3⟩ := readCMapN_section e f acc hs h (by decide) s (codePairsText_ne (by decide) hu)
    obtain ⟨sep', hs', h4⟩ := readPairs_text hu s
    have h5 : readMapSection e acc tn (b! "begincodespacerange") (u ++ s) = some (.ok ({ acc with codeSpace := acc.codeSpace ++ l }, s)) := by
      show some (stoll tn >>= _) = _
      rw [h2, ok_bind]
      show some (readPairs l.length (u ++ s) >>= _) = _
      rw [h4, ok_bind]
      dsimp only
      rw [expectWord_text (by decide) (by decide) hs' s hr]; rfl
    rw [h3, h5]
    dsimp only
    rw [ok_bind]
    obtain ⟨g, sep2, i1, i2, i3⟩ := ih f { acc with codeSpace := acc.codeSpace ++ l } (by omega)
    refine ⟨g, sep2, i1, i2, i3.trans ?_⟩
    unfold addMap
    simp
  | bfRange m l sep u t s hs hu h hr hm ih =>
    intro f acc hf
    have hpos := sectionText_pos h (by decide)
    simp only [List.length_append] at hf
    obtain ⟨f, rfl⟩ : ∃ g, f = g + 1 := ⟨f - 1, by omega⟩
    rw [List.append_assoc]
    obtain ⟨tn, h2, h3⟩ := readCMapN_section e f acc hs h (by decide) s (rangesText_ne (by decide) hu)
    obtain ⟨sep', hs', h4⟩ := readRanges_text e (w := b! "endbfrange") (by decide) (by decide) (by decide) hu s hr
    have h5 : readMapSection e acc tn (b! "beginbfrange") (u ++ s) = some (.ok ({ acc with bfRanges := acc.bfRanges ++ l }, s)) := by
      show some (stoll tn >>= _) = _
      rw [h2, ok_bind]
      show some (readRanges e l.length (u ++ s) >>= _) = _
      rw [h4, ok_bind]
      dsimp only
      rw [expectWord_text (by decide) (by decide) hs' s hr]; rfl
    rw [h3, h5]
    dsimp only
    rw [ok_bind]
    obtain ⟨g, sep2, i1, i2, i3⟩ := ih f { acc with bfRanges := acc.bfRanges ++ l } (by omega)
    refine ⟨g, sep2, i1, i2, i3.trans ?_⟩
    unfold addMap
    simp
  | bfChar m l sep u t s hs hu h hr hm ih =>
    intro f acc hf
    have hpos := sectionText_pos h (by decide)
    simp only [List.length_append] at hf
    obtain ⟨f, rfl⟩ : ∃ g, f = g + 1 := ⟨f - 1, by omega⟩
    rw [List.append_assoc]
    obtain ⟨tn, h2, h3⟩ := readCMapN_section e f acc hs h (by decide) s (codePairsText_ne (by decide) hu)
    obtain ⟨sep', hs', h4⟩ := readPairs_text hu s
    have h5 : readMapSection e acc tn (b! "beginbfchar") (u ++ s) = some (.ok ({ acc with bfChars := acc.bfChars ++ l }, s)) := by
      show some (stoll tn >>= _) = _
      rw [h2, ok_bind]
      show some (readPairs l.length (u ++ s) >>= _) = _
      rw [h4, ok_bind]
      dsimp only
      rw [expectWord_text (by decide) (by decide) hs' s hr]; rfl
    rw [h3, h5]
    dsimp only
    rw [ok_bind]
    obtain ⟨g, sep2, i1, i2, i3⟩ := ih f { acc with bfChars := acc.bfChars ++ l } (by omega)
    refine ⟨g, sep2, i1, i2, i3.trans ?_⟩
    unfold addMap
    simp
  | notdefRange m l sep u t s hs hu h hr hm ih =>
    intro f acc hf
    have hpos := sectionText_pos h (by decide)
    simp only [List.length_append] at hf
    obtain ⟨f, rfl⟩ : ∃ g, f = g + 1 := ⟨f - 1, by omega⟩
    rw [List.append_assoc]
    obtain ⟨tn, h2, h3⟩ := readCMapN_section e f acc hs h (by decide) s (rangesText_ne (by decide) hu)
    obtain ⟨sep', hs', h4⟩ := readRanges_text e (w := b! "endnotdefrange") (by decide) (by decide) (by decide) hu s hr
    have h5 : readMapSection e acc tn (b! "beginnotdefrange") (u ++ s) = some (.ok ({ acc with notdefRanges := acc.notdefRanges ++ l }, s)) := by
      show some (stoll tn >>= _) = _
      rw [h2, ok_bind]
      show some (readRanges e l.length (u ++ s) >>= _) = _
      rw [h4, ok_bind]
      dsimp only
      rw [expectWord_text (by decide) (by decide) hs' s hr]; rfl
    rw [h3, h5]
    dsimp only
    rw [ok_bind]
    obtain ⟨g, sep2, i1, i2, i3⟩ := ih f { acc with notdefRanges := acc.notdefRanges ++ l } (by omega)
    refine ⟨g, sep2, i1, i2, i3.trans ?_⟩
    unfold addMap
    simp
  | notdefChar m l sep u t s hs hu h hr hm ih =>
    intro f acc hf
    have hpos := sectionText_pos h (by decide)
    simp only [List.length_append] at hf
    obtain ⟨f, rfl⟩ : ∃ g, f = g + 1 := ⟨f - 1, by omega⟩
    rw [List.append_assoc]
    obtain ⟨tn, h2, h3⟩ := readCMapN_section e f acc hs h (by decide) s (codePairsText_ne (by decide) hu)
    obtain ⟨sep', hs', h4⟩ := readPairs_text hu s
    have h5 : readMapSection e acc tn (b! "beginnotdefchar") (u ++ s) = some (.ok ({ acc with notdefChars := acc.notdefChars ++ l }, s)) := by
      show some (stoll tn >>= _) = _
      rw [h2, ok_bind]
      show some (readPairs l.length (u ++ s) >>= _) = _
      rw [h4, ok_bind]
      dsimp only
      rw [expectWord_text (by decide) (by decide) hs' s hr]; rfl
    rw [h3, h5]
    dsimp only
    rw [ok_bind]
    obtain ⟨g, sep2, i1, i2, i3⟩ := ih f { acc with notdefChars := acc.notdefChars ++ l } (by omega)
    refine ⟨g, sep2, i1, i2, i3.trans ?_⟩
    unfold addMap
    simp
  | cidChar m l sep u t s hs hu h hr hm ih =>
    intro f acc hf
    have hpos := sectionText_pos h (by decide)
    simp only [List.length_append] at hf
    obtain ⟨f, rfl⟩ : ∃ g, f = g + 1 := ⟨f - 1, by omega⟩
    rw [List.append_assoc]
    obtain ⟨tn, h2, h3⟩ := readCMapN_section e f acc hs h (by decide) s (codePairsText_ne (by decide) hu)
    obtain ⟨sep', hs', h4⟩ := readPairs_text hu s
    have h5 : readMapSection e acc tn (b! "begincidchar") (u ++ s) = some (.ok ({ acc with cidChars := acc.cidChars ++ l }, s)) := by
      show some (stoll tn >>= _) = _
      rw [h2, ok_bind]
      show some (readPairs l.length (u ++ s) >>= _) = _
      rw [h4, ok_bind]
      dsimp only
      rw [expectWord_text (by decide) (by decide) hs' s hr]; rfl
    rw [h3, h5]
    dsimp only
    rw [ok_bind]
    obtain ⟨g, sep2, i1, i2, i3⟩ := ih f { acc with cidChars := acc.cidChars ++ l } (by omega)
    refine ⟨g, sep2, i1, i2, i3.trans ?_⟩
    unfold addMap
    simp
  | cidRange m l sep u t s hs hu h hr hm ih =>
    intro f acc hf
    have hpos := sectionText_pos h (by decide)
    simp only [List.length_append] at hf
    obtain ⟨f, rfl⟩ : ∃ g, f = g + 1 := ⟨f - 1, by omega⟩
    rw [List.append_assoc]
    obtain ⟨tn, h2, h3⟩ := readCMapN_section e f acc hs h (by decide) s (rangesText_ne (by decide) hu)
    obtain ⟨sep', hs', h4⟩ := readRanges_text e (w := b! "endcidrange") (by decide) (by decide) (by decide) hu s hr
    have h5 : readMapSection e acc tn (b! "begincidrange") (u ++ s) = some (.ok ({ acc with cidRanges := acc.cidRanges ++ l }, s)) := by
      show some (stoll tn >>= _) = _
      rw [h2, ok_bind]
      show some (readRanges e l.length (u ++ s) >>= _) = _
      rw [h4, ok_bind]
      dsimp only
      rw [expectWord_text (by decide) (by decide) hs' s hr]; rfl
    rw [h3, h5]
    dsimp only
    rw [ok_bind]
    obtain ⟨g, sep2, i1, i2, i3⟩ := ih f { acc with cidRanges := acc.cidRanges ++ l } (by omega)
    refine ⟨g, sep2, i1, i2, i3.trans ?_⟩
    unfold addMap
    simp
  | systemInfo m es d x sep tk sep1 t sep2 s hs hk hs1 he hsort hval hr ho v1 v2 v3 hs2 hends hm ih =>
    intro f acc hf
    have assoc : sep ++ 47 :: tk ++ sep1 ++ (60 :: 60 :: (t ++ [62, 62])) ++ sep2 ++ b! "def" ++ s =
        sep ++ 47 :: (tk ++ (sep1 ++ 60 :: 60 :: (t ++ 62 :: 62 :: (sep2 ++ (b! "def" ++ s))))) := by simp
    rw [assoc] at hf ⊢
    simp only [List.length_append, List.length_cons] at hf
    obtain ⟨f, rfl⟩ : ∃ g, f = g + 1 := ⟨f - 1, by omega⟩
    have h1 := nameToken hk hs (sep1 ++ 60 :: 60 :: (t ++ 62 :: 62 :: (sep2 ++ (b! "def" ++ s)))) (ends_delim _ _ (by decide) hs1)
    have h2 : readTokenSkip cmapKeywords (sep1 ++ 60 :: 60 :: (t ++ 62 :: 62 :: (sep2 ++ (b! "def" ++ s)))) =
        .ok (⟨.dictBegin, []⟩, t ++ 62 :: 62 :: (sep2 ++ (b! "def" ++ s))) := by
      rw [readTokenSkip_sep _ _ _ hs1]; exact readTokenSkip_of_token rfl (by decide)
    rw [readCMapN_name e f acc h1 h2]
    have h3 : readDefinition e acc (b! "CIDSystemInfo") (sep1 ++ 60 :: 60 :: (t ++ 62 :: 62 :: (sep2 ++ (b! "def" ++ s)))) =
        .ok ({ acc with systemInfo := some x }, s) := by
      unfold readDefinition expectSkip
      rw [if_pos rfl, h2, ok_bind]
      show (readDict e _ (t ++ 62 :: 62 :: (sep2 ++ (b! "def" ++ s))) [] >>= _) = _
      rw [readDict_text e he hsort hval _ _ (by simp only [List.length_append]; omega), ok_bind]
      dsimp only
      rw [findString_text v1 hr, ok_bind, findString_text v2 ho, ok_bind, findInteger_text v3, ok_bind,
        expectWord_text (by decide) (by decide) hs2 s hends]
      rfl
    rw [h3, ok_bind]
    obtain ⟨g, sep3, i1, i2, i3⟩ := ih f { acc with systemInfo := some x } (by omega)
    refine ⟨g, sep3, i1, i2, i3.trans ?_⟩
    unfold addMap
    cases hq : m.systemInfo <;> simp
  | mapName m n sep tk sep1 tn sep2 s hs hk hs1 hn hs2 hne hends hm ih =>
    intro f acc hf
    have assoc : sep ++ 47 :: tk ++ sep1 ++ 47 :: tn ++ sep2 ++ b! "def" ++ s =
        sep ++ 47 :: (tk ++ (sep1 ++ 47 :: (tn ++ (sep2 ++ (b! "def" ++ s))))) := by simp
    rw [assoc] at hf ⊢
    simp only [List.length_append, List.length_cons] at hf
    obtain ⟨f, rfl⟩ : ∃ g, f = g + 1 := ⟨f - 1, by omega⟩
    have h1 := nameToken hk hs (sep1 ++ 47 :: (tn ++ (sep2 ++ (b! "def" ++ s)))) (ends_delim _ _ (by decide) hs1)
    have h2 := nameToken hn hs1 (sep2 ++ (b! "def" ++ s)) (sep_ends _ _ hs2 hne)
    rw [readCMapN_name e f acc h1 h2]
    have h3 : readDefinition e acc (b! "CMapName") (sep1 ++ 47 :: (tn ++ (sep2 ++ (b! "def" ++ s)))) =
        .ok ({ acc with name := some n }, s) := by
      unfold readDefinition expectSkip
      rw [if_neg (by decide), if_pos rfl, h2, ok_bind]
      show (expectWord (b! "def") (sep2 ++ (b! "def" ++ s)) >>= _) = _
      rw [expectWord_text (by decide) (by decide) hs2 s hends]
      rfl
    rw [h3, ok_bind]
    obtain ⟨g, sep3, i1, i2, i3⟩ := ih f { acc with name := some n } (by omega)
    refine ⟨g, sep3, i1, i2, i3.trans ?_⟩
    unfold addMap
    cases hq : m.name <;> simp
  | mapType m i sep tk sep1 ti sep2 s hs hk hs1 hne1 hi hlo hhi hs2 hne hends hm ih =>
    intro f acc hf
    have assoc : sep ++ 47 :: tk ++ sep1 ++ ti ++ sep2 ++ b! "def" ++ s =
        sep ++ 47 :: (tk ++ (sep1 ++ (ti ++ (sep2 ++ (b! "def" ++ s))))) := by simp
    rw [assoc] at hf ⊢
    simp only [List.length_append, List.length_cons] at hf
    obtain ⟨f, rfl⟩ : ∃ g, f = g + 1 := ⟨f - 1, by omega⟩
    have h1 := nameToken hk hs (sep1 ++ (ti ++ (sep2 ++ (b! "def" ++ s)))) (sep_ends _ _ hs1 hne1)
    have h2 := intToken hi hs1 (sep2 ++ (b! "def" ++ s)) (sep_ends _ _ hs2 hne)
    rw [readCMapN_name e f acc h1 h2]
    have h3 : readDefinition e acc (b! "CMapType") (sep1 ++ (ti ++ (sep2 ++ (b! "def" ++ s)))) =
        .ok ({ acc with type := some i }, s) := by
      unfold readDefinition expectSkip
      rw [if_neg (by decide), if_neg (by decide), if_pos rfl, h2, ok_bind]
      show (stoll ti >>= _) = _
      rw [stoll_text hi hlo hhi, ok_bind]
      show (expectWord (b! "def") (sep2 ++ (b! "def" ++ s)) >>= _) = _
      rw [expectWord_text (by decide) (by decide) hs2 s hends]
      rfl
    rw [h3, ok_bind]
    obtain ⟨g, sep3, i1, i2, i3⟩ := ih f { acc with type := some i } (by omega)
    refine ⟨g, sep3, i1, i2, i3.trans ?_⟩
    unfold addMap
    cases hq : m.type <;> simp

theorem readCMap_tail (e : Env) {tail : Bytes} (ht : Ahead tail) {m : CMapData} {s : Bytes} (h : MapText tail m s) :
    ∃ g sep, Sep sep ∧ (sep ++ tail).length < g ∧ readCMap e s = readCMapN e g (sep ++ tail) m := by
  obtain ⟨g, sep, h1, h2, h3⟩ := readCMapN_text e ht h (s.length + 1) {} (by omega)
  exact ⟨g, sep, h1, h2, by unfold readCMap; rw [h3, addMap_nil]⟩

theorem readCMap_text (e : Env) {m : CMapData} {s : Bytes} (h : CMapText m s) : readCMap e s = .ok m := by
  obtain ⟨f, sep, hs, hf, heq⟩ := readCMap_tail e ahead_nil h
  rw [heq]
  obtain ⟨f, rfl⟩ : ∃ g, f = g + 1 := ⟨f - 1, by omega⟩
  have h1 : readTokenSkip cmapKeywords [] = .ok (⟨.endOfInput, []⟩, []) := readTokenSkip_of_token rfl (by decide)
  have h0 : readTokenSkip cmapKeywords (sep ++ []) = .ok (⟨.endOfInput, []⟩, []) := by rw [readTokenSkip_sep _ _ _ hs, h1]
  rw [readCMapN, h0, ok_bind]
  dsimp only
  rw [h1, ok_bind]
  rfl

/-! ### Wrong sections -/

theorem expectWord_other {w s r : Bytes} {t : Token} (h : readTokenSkip cmapKeywords s = .ok (t, r)) (ht : t.type ≠ .keyword w) :
    expectWord w s = .error .throw := by
  unfold expectWord expectSkip
  rw [h, ok_bind]
  simp only [show (t.type == TokType.keyword w) = false by simpa using ht]
  rfl

theorem word_token {w : Bytes} (h : plainWord w = true) {sep : Bytes} (hs : Sep sep) (rest : Bytes) (hr : EndsToken rest) :
    ∃ t, readTokenSkip cmapKeywords (sep ++ (w ++ rest)) = .ok (t, rest) ∧ t.type ≠ .hexString := by
  refine ⟨_, by rw [readTokenSkip_sep _ _ _ hs]; exact readTokenSkip_word _ h rest hr, ?_⟩
  show dictFind cmapKeywords w ≠ _
  unfold dictFind; split <;> simp

/-- Too few or too many pairs: reading fails, or a string stands where the section should end. -/
theorem readPairs_count {w : Bytes} (hw : plainWord w = true) {l : List (Bytes × Bytes)} {u : Bytes} (h : CodePairsText w l u) (rest : Bytes)
    (hr : EndsToken rest) (k : Nat) (hk : k ≠ l.length) :
    readPairs k (u ++ rest) = .error .throw ∨
      ∃ l' r v r', readPairs k (u ++ rest) = .ok (l', r) ∧ readTokenSkip cmapKeywords r = .ok (⟨.hexString, v⟩, r') := by
  induction h generalizing k with
  | done sep hs =>
    obtain ⟨k, rfl⟩ : ∃ j, k = j + 1 := ⟨k - 1, by simp at hk; omega⟩
    obtain ⟨t, h1, h2⟩ := word_token hw hs rest hr
    left
    rw [readPairs, List.append_assoc, readHexadecimal_other h1 h2]; rfl
  | cons a b l sep1 ta sep2 tb s h1 ha h2 hb _ ih =>
    have assoc : sep1 ++ ta ++ sep2 ++ tb ++ s ++ rest = sep1 ++ (ta ++ (sep2 ++ (tb ++ (s ++ rest)))) := by simp
    rw [assoc]
    cases k with
    | zero =>
      obtain ⟨v, g1, -⟩ := hexToken cmapKeywords ha h1 (sep2 ++ (tb ++ (s ++ rest)))
      exact Or.inr ⟨_, _, v, _, rfl, g1⟩
    | succ k =>
      rw [readPairs, readHexadecimal_text ha h1, ok_bind]
      dsimp only
      rw [readHexadecimal_text hb h2, ok_bind]
      dsimp only
      rcases ih k (by simpa using hk) with g | ⟨l', r, v, r', g1, g2⟩
      · left; rw [g]; rfl
      · right; refine ⟨_, r, v, r', by rw [g1]; rfl, g2⟩

theorem readRanges_count (e : Env) {w : Bytes} (hw : plainWord w = true) (w1 : w ≠ b! "stream") (w2 : w ≠ b! "R") {l : List FontRange}
    {u : Bytes} (h : RangesText w l u) (rest : Bytes) (hr : EndsToken rest) (k : Nat) (hk : k ≠ l.length) :
    readRanges e k (u ++ rest) = .error .throw ∨
      ∃ l' r v r', readRanges e k (u ++ rest) = .ok (l', r) ∧ readTokenSkip cmapKeywords r = .ok (⟨.hexString, v⟩, r') := by
  induction h generalizing k with
  | done sep hs =>
    obtain ⟨k, rfl⟩ : ∃ j, k = j + 1 := ⟨k - 1, by simp at hk; omega⟩
    obtain ⟨t, h1, h2⟩ := word_token hw hs rest hr
    left
    rw [readRanges, List.append_assoc, readHexadecimal_other h1 h2]; rfl
  | cons a b o l sep1 ta sep2 tb sep3 t s h1 ha h2 hb h3 ho hbd hl ih =>
    have assoc : sep1 ++ ta ++ sep2 ++ tb ++ sep3 ++ t ++ s ++ rest =
      sep1 ++ (ta ++ (sep2 ++ (tb ++ (sep3 ++ (t ++ (s ++ rest)))))) := by simp
    rw [assoc]
    cases k with
    | zero =>
      obtain ⟨v, g1, -⟩ := hexToken cmapKeywords ha h1 (sep2 ++ (tb ++ (sep3 ++ (t ++ (s ++ rest)))))
      exact Or.inr ⟨_, _, v, _, rfl, g1⟩
    | succ k =>
      rw [readRanges, readHexadecimal_text ha h1, ok_bind]
      dsimp only
      rw [readHexadecimal_text hb h2, ok_bind]
      dsimp only
      rw [parse_text e ho h3 _ (boundary_extend rest (rangesText_ne hw hl) hbd) (rangesText_follow hw w1 w2 hl rest hr), ok_bind]
      dsimp only
      rcases ih k (by simpa using hk) with g | ⟨l', r, v, r', g1, g2⟩
      · left; rw [g]; rfl
      · right; refine ⟨_, r, v, r', by rw [g1]; rfl, g2⟩

/-- An integer and a section word in front of something unreadable. -/
theorem readCMap_bad (e : Env) {tn sep w u : Bytes} {n : Int} (hn : IntText n tn) (h1 : -9223372036854775808 ≤ n)
    (h2 : n ≤ 9223372036854775807) (hs : Sep sep) (hne : sep ≠ []) (hw : w ∈ sectionWords) (hu : EndsToken u)
    {m : CMapData} {s : Bytes} (h : MapText (tn ++ sep ++ w ++ u) m s)
    (hbad : ∀ acc, stoll tn = .ok n → readMapSection e acc tn w u = some (.error .throw)) : readCMap e s = .error .throw := by
  have assoc : tn ++ sep ++ w ++ u = tn ++ (sep ++ (w ++ u)) := by simp
  rw [assoc] at h
  have htok : readTokenSkip cmapKeywords (tn ++ (sep ++ (w ++ u))) = .ok (⟨.integer, tn⟩, sep ++ (w ++ u)) :=
    readTokenSkip_of_token (readToken_int _ hn _ (sep_ends _ _ hs hne)) (by simp)
  have hah : Ahead (tn ++ (sep ++ (w ++ u))) := ahead_of htok (by simp)
  obtain ⟨f, sep', hs', hf, heq⟩ := readCMap_tail e hah h
  obtain ⟨f, rfl⟩ : ∃ g, f = g + 1 := ⟨f - 1, by omega⟩
  have hw2 : readTokenSkip cmapKeywords (sep ++ (w ++ u)) = .ok (⟨.keyword w, w⟩, u) := by
    obtain ⟨g1, g2⟩ := sectionKeyword hw
    rw [readTokenSkip_sep _ _ _ hs, readTokenSkip_word _ g1 _ hu]
    have : dictFind cmapKeywords w = .keyword w := by unfold dictFind; rw [if_pos g2]
    rw [this]
  rw [heq, readCMapN, readTokenSkip_sep _ _ _ hs', htok, ok_bind]
  dsimp only
  rw [hw2, ok_bind]
  dsimp only
  rw [hbad m (stoll_text hn h1 h2)]
  rfl

end VPdf
