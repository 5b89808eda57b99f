import Verif.Lemmas.XrefTable
import Verif.Model.Writer
/-
  An indirect object as the file writer writes it is read back.
-/
namespace VPdf
open Spec

theorem ends_lf (x : Bytes) : EndsToken (0x0A :: x) := by intro d hd; simp at hd; subst hd; decide

/-- The frame `n g obj ... endobj` around any text that is read as an object. -/
theorem parseIndirect_frame (e : Env) (n g : Nat) (t rest : Bytes) (p : PObj) (hn : n ≤ 9223372036854775807)
    (hg : g ≤ 65535) (hr : EndsToken rest)
    (hp : ∀ f, 2 * t.length ≤ f → readDirect e f (t ++ (b! "\nendobj" ++ rest)) = .ok (p, b! "\nendobj" ++ rest)) :
    parseIndirect e (natDec n ++ (b! " " ++ (natDec g ++ (b! " " ++ (b! "obj" ++ (b! "\n" ++ (t ++ (b! "\nendobj" ++ rest)))))))) =
      .ok (n, g, p, rest) := by
  have k1 := expectSkip_token (skip_int (p := []) .nil (natDec_text n)
    (b! " " ++ (natDec g ++ (b! " " ++ (b! "obj" ++ (b! "\n" ++ (t ++ (b! "\nendobj" ++ rest))))))) (ends_space _))
  have k2 := expectSkip_token (skip_int sep_space (natDec_text g)
    (b! " " ++ (b! "obj" ++ (b! "\n" ++ (t ++ (b! "\nendobj" ++ rest))))) (ends_space _))
  have k3 := expectSkip_token (skip_keyword sep_space 0x6F (b! "bj") (b! "\n" ++ (t ++ (b! "\nendobj" ++ rest)))
    (by decide) (by decide) (by decide) (ends_lf _))
  have k4 := expectSkip_token (skip_keyword sep_lf 0x65 (b! "ndobj") rest (by decide) (by decide) (by decide) hr)
  have sn := stoll_text (natDec_text n) (by omega) (by omega)
  have sg := stoll_text (natDec_text g) (by omega) (by omega)
  rw [parseIndirect]
  erw [k1]; rw [ok_bind]; dsimp only
  erw [k2]; rw [ok_bind]; dsimp only
  erw [k3]; rw [ok_bind]; dsimp only
  rw [parse, readDirect_sep e _ _ sep_lf, hp _ (by simp; omega), ok_bind]; dsimp only
  erw [k4]; rw [ok_bind]; dsimp only
  rw [sn, ok_bind, sg, ok_bind, if_pos ⟨by omega, by omega, by omega⟩]
  rfl

theorem entries_parse (e : Env) : ∀ {es : List (Bytes × Obj)} {s : Bytes}, Entries es s → EntriesParse e es s
  | _, _, .nil sep hs => entriesParse_nil e sep hs
  | _, _, .cons k o es sep1 tk sep2 t s hs1 hk hs2 hends hd he hb =>
    entriesParse_cons e k o es sep1 tk sep2 t s hs1 hk hs2 hends hd hb (denotes_parses e hd) (entries_parse e he)

/-- A dictionary followed by any text: the entries are read, then what may be a stream. -/
theorem readDirect_dict (e : Env) {d : Dict} {t : Bytes} (h : Denotes (.dict d) t) (rest : Bytes) (f : Nat)
    (hf : 2 * t.length ≤ f) : readDirect e f (t ++ rest) = readStreamPart e d rest := by
  have key : ∀ es s, EntriesParse e es s → SortedKeys d → (∀ k, valueAt k d = firstValue k es) →
      2 * (60 :: 60 :: (s ++ [62, 62])).length ≤ f →
      readDirect e f (60 :: 60 :: (s ++ [62, 62]) ++ rest) = readStreamPart e d rest := by
    intro es s h hsort hval hf
    have hs : readTokenSkip parserKeywords (60 :: 60 :: (s ++ 62 :: 62 :: rest)) =
        .ok (⟨.dictBegin, []⟩, s ++ 62 :: 62 :: rest) := readTokenSkip_of_token rfl (by decide)
    have assoc : 60 :: 60 :: (s ++ [62, 62]) ++ rest = 60 :: 60 :: (s ++ 62 :: 62 :: rest) := by simp
    rw [assoc]
    obtain ⟨f, rfl⟩ : ∃ g, f = g + 1 := by
      cases f with
      | zero => simp at hf
      | succ g => exact ⟨g, rfl⟩
    rw [readDirect, hs, ok_bind]
    show (readDict e f (s ++ 62 :: 62 :: rest) [] >>= _) = _
    rw [(h rest).1 [] f (by simp at hf; omega), ok_bind]
    have hd : buildDict [] es = d := by
      obtain ⟨b1, b2⟩ := buildDict_spec es [] List.Pairwise.nil
      apply sorted_ext b1 hsort
      intro k; rw [b2 k, ← valueAt_eq k d, hval k]; rfl
    rw [hd]
  cases h with
  | dict es _ s he hsort hval => exact key es s (entries_parse e he) hsort hval hf

/-- Seeking to the end of a prefix of the file. -/
theorem seek_prefix (e : Env) (pre s : Bytes) (h : e.whole = pre ++ s) : e.seek pre.length = s := by
  unfold Env.seek
  rw [if_neg (by omega), h]
  simp

theorem pos_suffix (e : Env) (pre s : Bytes) (h : e.whole = pre ++ s) : e.pos s = pre.length := by
  unfold Env.pos; rw [h]; simp

/-- The text of a stream behind its dictionary is read by its length, whatever the body is. -/
theorem readStreamPart_body (e : Env) (d : Dict) (lo : Obj) (pre body rest : Bytes)
    (hw : e.whole = pre ++ (b! "\nstream\n" ++ (body ++ (b! "endstream" ++ rest)))) (hr : EndsToken rest)
    (hl : mapFind (b! "Length") d = some lo) (hint : e.initialized = true ∨ ∃ i, lo = .int i)
    (hlen : asInt e lo = .ok body.length) :
    readStreamPart e d (b! "\nstream\n" ++ (body ++ (b! "endstream" ++ rest))) =
      .ok (.stream d (pre.length + 8), rest) := by
  have k1 := skip_keyword sep_lf 0x73 (b! "tream") (b! "\n" ++ (body ++ (b! "endstream" ++ rest)))
    (by decide) (by decide) (by decide) (ends_lf _)
  have k2 : readToken parserKeywords (b! "\n" ++ (body ++ (b! "endstream" ++ rest))) =
    .ok (⟨.eol, []⟩, body ++ (b! "endstream" ++ rest)) := rfl
  have k3 := skip_keyword (p := []) .nil 0x65 (b! "ndstream") rest (by decide) (by decide) (by decide) hr
  have hpos : e.pos (body ++ (b! "endstream" ++ rest)) = pre.length + 8 := by
    rw [pos_suffix e (pre ++ b! "\nstream\n") _ (by rw [hw]; simp)]; simp
  have hseek : e.seek (((pre.length + 8 : Nat) : Int) + (body.length : Int)) = b! "endstream" ++ rest := by
    have := seek_prefix e (pre ++ b! "\nstream\n" ++ body) (b! "endstream" ++ rest) (by rw [hw]; simp)
    rw [← this]; congr 1; simp; omega
  rw [readStreamPart]
  erw [k1]
  rw [ok_bind]; dsimp only
  rw [if_pos (by decide), k2, ok_bind]; dsimp only
  rw [if_neg (by decide)]
  simp only [hpos, hl]
  rw [if_neg (by
    rcases hint with h | ⟨i, rfl⟩
    · cases lo <;> simp [h]
    · simp), hlen, ok_bind, hseek]
  erw [k3]
  rw [ok_bind]; dsimp only
  rw [if_pos (by decide)]
  rfl

/-- The object a reader sees in place of the written one. -/
def readBack : SObj → SObj
  | .direct o => .direct (dropNulls o)
  | .stream d body => .stream (dropNullsEntries d) body

/-- Objects the file writer writes so that they can be read back: what a dictionary or array holds has a text, and the
entry Length of a stream is the number of bytes of its body: given directly, or (`resolve`) by reference. -/
def Sound (resolve : Nat → Nat → Res Int) (opened : Bool) : SObj → Prop
  | .direct o => Holdable o
  | .stream d body => Holdable (.dict d) ∧ ∃ lo, mapFind (b! "Length") d = some lo ∧
      (opened = true ∨ ∃ i, lo = .int i) ∧ asInt ⟨[], true, resolve⟩ lo = .ok body.length

theorem asInt_env (e e' : Env) (h : e.resolveInt = e'.resolveInt) (o : Obj) : asInt e o = asInt e' o := by
  cases o <;> simp [asInt, h]

/-- Where the body of an object at the position `pos` starts. -/
def bodyStart (n g : Nat) (d : Dict) : Nat :=
  (natDec n ++ b! " " ++ natDec g ++ b! " obj\n" ++ writeObj (.dict d)).length + 8

theorem dropNullsEntries_find {d : Dict} {k : Bytes} {o : Obj} (h : mapFind k d = some o) (ho : o ≠ .null)
    (hs : SortedKeys d) : mapFind k (dropNullsEntries d) = some (dropNulls o) := by
  induction d with
  | nil => cases h
  | cons x d ih =>
    obtain ⟨k', v⟩ := x
    rw [mapFind] at h
    rw [SortedKeys, List.pairwise_cons] at hs
    by_cases hk : k = k'
    · subst hk
      simp at h; subst h
      rw [dropNullsEntries_cons _ _ _ ho, mapFind]; simp
    · rw [if_neg (by simpa using hk)] at h
      by_cases hv : v = .null
      · subst hv; rw [dropNullsEntries]; exact ih h hs.2
      · rw [dropNullsEntries_cons _ _ _ hv, mapFind, if_neg (by simpa using hk)]; exact ih h hs.2

theorem dropNulls_asInt (e : Env) (o : Obj) : asInt e (dropNulls o) = asInt e o := by
  cases o <;> simp [dropNulls, asInt]

/-- An indirect object in a file is read back from its position. -/
theorem parse_written (e : Env) (n g : Nat) (o : SObj) (pre post : Bytes)
    (hw : e.whole = pre ++ (writeObject n g o ++ post)) (hn : n ≤ 9223372036854775807) (hg : g ≤ 65535)
    (ho : Sound e.resolveInt e.initialized o) :
    ∃ p, parseIndirect e (e.seek pre.length) = .ok (n, g, p, b! "\n" ++ post) ∧
      match o with
      | .direct o => p = .direct (dropNulls o)
      | .stream d body => p = .stream (dropNullsEntries d) (pre.length + bodyStart n g d) ∧
          rawBody e (dropNullsEntries d) (pre.length + bodyStart n g d) = .ok body := by
  rw [seek_prefix e pre _ hw]
  cases o with
  | direct o =>
    refine ⟨_, ?_, rfl⟩
    have hk := skip_keyword sep_lf 0x65 (b! "ndobj") (b! "\n" ++ post) (by decide) (by decide) (by decide) (ends_lf _)
    have := parseIndirect_frame e n g (writeObj o) (b! "\n" ++ post) (.direct (dropNulls o)) hn hg (ends_lf _) (by
      intro f hf
      refine (denotes_parses e (writeObj_denotes' ho) _ (Or.inr (ends_lf _)) ?_).1 f hf
      exact follow_of_token hk (by decide) (by decide) (by decide))
    rw [← this]
    congr 1
    simp [writeObject, writeBody]
  | stream d body =>
    obtain ⟨hd, lo, h1, h2, h3⟩ := ho
    have hs : SortedKeys d := by cases hd; assumption
    have hnn : lo ≠ .null := by rintro rfl; simp [asInt] at h3
    have h1' := dropNullsEntries_find h1 hnn hs
    have h3' : asInt e (dropNulls lo) = .ok body.length := by
      rw [dropNulls_asInt, ← h3]; exact asInt_env _ _ rfl _
    refine ⟨.stream (dropNullsEntries d) (pre.length + bodyStart n g d), ?_, rfl, ?_⟩
    · have := parseIndirect_frame e n g (writeBody (.stream d body)) (b! "\n" ++ post)
        (.stream (dropNullsEntries d) (pre.length + bodyStart n g d)) hn hg (ends_lf _) (by
        intro f hf
        have hden := writeObj_denotes' hd
        rw [dropNulls] at hden
        have r1 := readDirect_dict e hden (b! "\nstream\n" ++ (body ++ (b! "endstream" ++ (b! "\nendobj" ++ (b! "\n" ++ post))))) f (by
          simp [writeBody] at hf; omega)
        have r2 := readStreamPart_body e (dropNullsEntries d) (dropNulls lo)
          (pre ++ (natDec n ++ b! " " ++ natDec g ++ b! " obj\n" ++ writeObj (.dict d))) body
          (b! "\nendobj" ++ (b! "\n" ++ post)) (by rw [hw]; simp [writeObject, writeBody]) (ends_lf _) h1'
          (by rcases h2 with h | ⟨i, rfl⟩
              · exact Or.inl h
              · exact Or.inr ⟨i, rfl⟩) h3'
        have e1 : writeBody (.stream d body) ++ (b! "\nendobj" ++ (b! "\n" ++ post)) =
          writeObj (.dict d) ++ (b! "\nstream\n" ++ (body ++ (b! "endstream" ++ (b! "\nendobj" ++ (b! "\n" ++ post))))) := by
          simp [writeBody]
        rw [e1, r1, r2]
        simp [bodyStart]; omega)
      rw [← this]
      congr 1
      simp [writeObject]
    · rw [rawBody, h1']
      dsimp only
      rw [h3', ok_bind, if_neg (by omega)]
      have : List.drop (pre.length + bodyStart n g d) e.whole = body ++ (b! "endstream\nendobj\n" ++ post) := by
        have e2 : e.whole = (pre ++ (natDec n ++ b! " " ++ natDec g ++ b! " obj\n" ++ writeObj (.dict d) ++ b! "\nstream\n")) ++
          (body ++ (b! "endstream\nendobj\n" ++ post)) := by rw [hw]; simp [writeObject, writeBody]
        rw [e2, List.drop_left' (by simp [bodyStart]; omega)]
      rw [this]
      show Except.ok _ = _
      simp

/-- The same for `loadAt`. -/
theorem loadAt_written (e : Env) (n g : Nat) (o : SObj) (pre post : Bytes)
    (hw : e.whole = pre ++ (writeObject n g o ++ post)) (hn : n ≤ 9223372036854775807) (hg : g ≤ 65535)
    (ho : Sound e.resolveInt e.initialized o) : loadAt e n g pre.length = .ok (readBack o) := by
  obtain ⟨p, h1, h2⟩ := parse_written e n g o pre post hw hn hg ho
  rw [loadAt, h1, ok_bind]; dsimp only
  rw [if_neg (by simp)]
  cases o with
  | direct o => dsimp only at h2; subst h2; rfl
  | stream d body =>
    obtain ⟨rfl, h3⟩ := h2
    dsimp only
    rw [h3]; rfl

end VPdf
