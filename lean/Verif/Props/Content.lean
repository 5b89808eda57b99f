import Verif.Lemmas.ContentTerm
import Verif.Model.PageContents
/-
  C53, C75, C76, C77: content streams.
-/
namespace VPdf
open Spec

/-! ### C53: instructions written and read back -/

/-- **C53, reading.**  Every rendition of a sequence of instructions - whatever white space, comments, spelling of
numbers, names and strings - is read as that sequence. -/
theorem C53_reads (is : List Instr) (s : Bytes) (h : ContentText is s) : readInstructions s = .ok is :=
  contentText_reads h

/-- The instruction is no inline image. -/
def Spec.NotImage : Instr → Prop
  | .image _ _ => False
  | _ => True

/-- **C53, partial: no inline images.**  Instructions that are written are read back as they were.  Inline images are
missing: see `C53_images_partial` and `C53_image_counterexample`. -/
theorem C53_write_read_partial (is : List Instr) (h : ∀ i ∈ is, InstrSavable i) (hi : ∀ i ∈ is, NotImage i) :
    readInstructions (writeInstructions is) = .ok is := by
  have h1 := contentText_reads (writeInstructions_text is h [] .nil)
  rw [List.nil_append] at h1
  rw [h1]
  congr 1
  have : ∀ i ∈ is, reread i = i := by
    intro i hm
    have := hi i hm
    cases i <;> first | rfl | exact absurd this (by simp [NotImage])
  calc is.map reread = is.map id := List.map_congr_left this
    _ = is := List.map_id is

/-- **C53, partial: with inline images.**  The only change is a line end in front of the data of each image. -/
theorem C53_images_partial (is : List Instr) (h : ∀ i ∈ is, InstrSavable i) :
    readInstructions (writeInstructions is) = .ok (is.map reread) := by
  have h1 := contentText_reads (writeInstructions_text is h [] .nil)
  rwa [List.nil_append] at h1

/-- **C53, stability.**  Whatever was read from any input, if its operators are words, its real numbers have a
fraction and it contains no image, then it is written so that it is read back as it was. -/
theorem C53_stable_partial (s : Bytes) (is : List Instr) (hr : readInstructions s = .ok is)
    (hi : ∀ i ∈ is, NotImage i) (hw : ∀ i ∈ is, ∀ o ∈ operations i, OperatorWord o.op)
    (hf : ∀ i ∈ is, ∀ o ∈ operations i, ∀ x ∈ o.operands, FracReals x) :
    readInstructions (writeInstructions is) = .ok is := by
  refine C53_write_read_partial is ?_ hi
  intro i hm
  have hread := readInstructionsN_readInstr _ _ _ _ (by simp) hr i hm
  cases i with
  | op o =>
    obtain ⟨⟨h1, h2⟩, h3, h4⟩ := hread
    exact ⟨⟨fun x hx => readVal_savable (h1 x hx) (hf _ hm o (by simp [operations]) x hx),
      hw _ hm o (by simp [operations]), h2⟩, h3, h4⟩
  | text ops =>
    intro o ho
    obtain ⟨⟨h1, h2⟩, h3⟩ := hread o ho
    exact ⟨⟨fun x hx => readVal_savable (h1 x hx) (hf _ hm o ho x hx), hw _ hm o ho, h2⟩, h3⟩
  | image d data => exact absurd (hi _ hm) (by simp [NotImage])

/-- **C53 is false for inline images**: an image with any dictionary that can be written and any data, followed by
anything, is never read back with the same data.  The line end written behind `ID` becomes part of the data. -/
theorem C53_image_counterexample (d : Dict) (data : Bytes) (post : List Instr) (hd : SortedKeys d)
    (hv : ∀ x ∈ d, Savable x.2 ∧ NoRef x.2 ∧ x.2 ≠ .null) (out : List Instr) :
    readInstructions (writeInstructions (.image d data :: post)) ≠ .ok (.image d data :: out) := by
  intro h
  obtain ⟨data', h1, r, h2⟩ := image_first hd hv h
  obtain ⟨w1, w2, -, -, h3⟩ := readImageData_split _ _ _ _ _ (by trivial) h2
  cases h1
  have h4 : (10 :: data) ++ (10 :: (b! "EI" ++ 10 :: writeInstructions post)) =
      (data ++ [w1]) ++ (0x45 :: 0x49 :: w2 :: r) := by
    simpa [ImgStage.held] using h3
  have h5 := (List.append_inj h4 (by simp)).2
  cases h5

/-- Another end of C53: an operand followed by a stray `]` is read as an operation without operator; written back,
the operand joins the next operation. -/
theorem C53_operator_counterexample :
    readInstructions (b! "1 ] 2 w") = .ok [.op ⟨[.int 1], []⟩, .op ⟨[.int 2], b! "w"⟩] ∧
    readInstructions (writeInstructions [.op ⟨[.int 1], []⟩, .op ⟨[.int 2], b! "w"⟩]) =
      .ok [.op ⟨[.int 1, .int 2], b! "w"⟩] := by
  constructor <;> rfl

/-- An inline image whose data end in a separate `E` has no end for the reader. -/
theorem C53_end_counterexample : readInstructions (b! "BI ID a E EI Q") = .error .conversion := by rfl

/-- An inline image that ends the content is refused: white space is expected behind `EI`. -/
theorem C53_last_counterexample : readInstructions (b! "BI ID a EI") = .error .conversion := by rfl

/-! ### C76: reading ends -/

/-- **C76, partial.**  Reading any input that does not contain the two characters `BI` ends, with instructions or
with an error.  Inline images are missing: see `C76_counterexample`. -/
theorem C76_ends_partial (s : Bytes) (h : ¬ b! "BI" <:+: s) : readInstructions s ≠ .error .timeout :=
  readInstructionsN_no_timeout _ _ _ h (by omega)

/-- **C76 is false**: behind `BI` every token that is neither a name nor `ID` is looked at again and again. -/
theorem C76_counterexample : readInstructions (b! "BI 1 ID x EI ") = .error .timeout ∧
    readInstructions (b! "BI") = .error .timeout := by
  constructor <;> rfl

/-! ### C77: several streams -/

/-- The tokens of two texts do not run into each other when the texts are joined: the first ends with white space, or
the second is empty or begins with white space or a delimiter. -/
def Spec.Parted (s t : List UInt8) : Prop := EndsToken t ∨ ∃ c ∈ s.getLast?, c ∈ whiteSpace

/-- The tokens of consecutive texts do not run into each other. -/
def Spec.AllParted : List (List UInt8) → Prop
  | s :: t :: rest => Parted s t ∧ AllParted (t :: rest)
  | _ => True

theorem parted_rest {s : Bytes} {bs : List Bytes} (h : AllParted (s :: bs)) :
    EndsToken bs.flatten ∨ ∃ c ∈ s.getLast?, c ∈ whiteSpace := by
  induction bs generalizing s with
  | nil => exact Or.inl (by intro c hc; cases hc)
  | cons b bs ih =>
    obtain ⟨h1, h2⟩ := h
    rcases h1 with h1 | h1
    · refine Or.inl (endsToken_append h1 ?_)
      intro e; subst e
      rcases ih h2 with h3 | ⟨c, hc, -⟩
      · exact h3
      · cases hc
    · exact Or.inr h1

theorem joined_text (parts : List (List Instr × Bytes)) (h : ∀ x ∈ parts, ContentText x.1 x.2)
    (hp : AllParted (parts.map Prod.snd)) : ContentText (parts.map Prod.fst).flatten (parts.map Prod.snd).flatten := by
  induction parts with
  | nil => exact .nil [] .nil
  | cons x parts ih =>
    have hp' : AllParted (parts.map Prod.snd) := by
      cases parts with
      | nil => trivial
      | cons y l => exact hp.2
    exact contentText_append (h x (by simp)) (ih (fun y hy => h y (by simp [hy])) hp') (parted_rest hp)

/-- **C77, partial.**  When the tokens of consecutive streams do not run into each other, the instructions of the page
are those of its streams, one after the other.  Missing: streams that end with a token and are followed by one that
begins with a token, see `C77_counterexample`; and instructions that are spread over two streams. -/
theorem C77_streams_partial (parts : List (List Instr × Bytes)) (h : ∀ x ∈ parts, ContentText x.1 x.2)
    (hp : AllParted (parts.map Prod.snd)) :
    pageInstructions (parts.map Prod.snd) = .ok (parts.map Prod.fst).flatten :=
  contentText_reads (joined_text parts h hp)

/-- **C77, split instructions.**  However a text is divided into streams, the page has the instructions of the text. -/
theorem C77_split_partial (is : List Instr) (bodies : List Bytes) (h : ContentText is bodies.flatten) :
    pageInstructions bodies = .ok is := contentText_reads h

/-- **C77 is false** where the division is a boundary of tokens: `q` in one stream and `Q` in the next are read as the
one operator `qQ`. -/
theorem C77_counterexample : pageInstructions [b! "q", b! "Q"] = .ok [.op ⟨[], b! "qQ"⟩] ∧
    pageInstructions [b! "q"] = .ok [.op ⟨[], b! "q"⟩] ∧ pageInstructions [b! "Q"] = .ok [.op ⟨[], b! "Q"⟩] := by
  refine ⟨?_, ?_, ?_⟩ <;> rfl

/-! ### C75: edits of the instructions of a page -/

/-- What the user sees of the edits: the list they leave. -/
def Spec.edited : List Instr → List ContentEdit → List Instr
  | is, [] => is
  | is, .append i :: es => edited (is ++ [i]) es
  | is, .insert n i :: es => edited (is.take n ++ i :: is.drop n) es
  | is, .remove n :: es => edited (is.eraseIdx n) es
  | _, .clear :: es => edited [] es

theorem edits_frame {p q : PageContents} {es : List ContentEdit} (h : p.edits es = .ok q) :
    q.dirty = p.dirty ∧ q.bodies = p.bodies ∧ q.isArray = p.isArray := by
  induction es generalizing p with
  | nil => cases h; exact ⟨rfl, rfl, rfl⟩
  | cons e es ih =>
    rw [PageContents.edits] at h
    obtain ⟨p', h1, h⟩ := bind_ok h
    obtain ⟨g1, g2, g3⟩ := ih h
    unfold PageContents.edit at h1
    obtain ⟨⟨is, p1⟩, h2, h1⟩ := bind_ok h1
    obtain ⟨is', -, h1⟩ := bind_ok h1
    cases h1
    have : p1.dirty = p.dirty ∧ p1.bodies = p.bodies ∧ p1.isArray = p.isArray := by
      unfold PageContents.instructions at h2
      split at h2
      · cases h2; exact ⟨rfl, rfl, rfl⟩
      · obtain ⟨_, -, h2⟩ := bind_ok h2
        cases h2; exact ⟨rfl, rfl, rfl⟩
    obtain ⟨k1, k2, k3⟩ := this
    exact ⟨g1.trans k1, g2.trans k2, g3.trans k3⟩

theorem edits_list {p q : PageContents} {es : List ContentEdit} {is : List Instr} (hp : p.instrs = some is)
    (h : p.edits es = .ok q) : q.instrs = some (edited is es) := by
  induction es generalizing p is with
  | nil => cases h; exact hp
  | cons e es ih =>
    rw [PageContents.edits] at h
    obtain ⟨p', h1, h⟩ := bind_ok h
    unfold PageContents.edit PageContents.instructions at h1
    rw [hp] at h1
    obtain ⟨⟨is1, p1⟩, h2, h1⟩ := bind_ok h1
    cases h2
    obtain ⟨is', h3, h1⟩ := bind_ok h1
    cases h1
    have := ih (is := is') rfl h
    rw [this]
    cases e with
    | append i => cases h3; rfl
    | insert n i =>
      dsimp only [applyEdit] at h3
      split at h3
      · cases h3; rfl
      · cases h3
    | remove n =>
      dsimp only [applyEdit] at h3
      split at h3
      · cases h3; rfl
      · cases h3
    | clear => cases h3; rfl

/-- **C75 is false**: after any edits of the instructions of a page whose underlying object has not been changed
otherwise, recalculation reports that there is nothing to do, and the streams keep their old text. -/
theorem C75_edits_lost_counterexample (p q : PageContents) (es : List ContentEdit) (hp : p.dirty = false)
    (h : p.edits es = .ok q) : q.recalculate = .ok (false, q) ∧ q.bodies = p.bodies := by
  obtain ⟨h1, h2, -⟩ := edits_frame h
  refine ⟨?_, h2⟩
  unfold PageContents.recalculate
  rw [h1, hp]; rfl

/-- **C75 is false** in the other direction too: when the underlying object was changed and the instructions have not
been read, recalculation empties the contents. -/
theorem C75_unread_counterexample (p : PageContents) (hi : p.instrs = none) (hb : p.bodies ≠ []) :
    ∃ q, p.touch.recalculate = .ok (true, q) ∧ pageInstructions q.bodies = .ok [] := by
  unfold PageContents.recalculate PageContents.touch
  cases hA : p.isArray with
  | true =>
    cases hbs : p.bodies with
    | nil => exact absurd hbs hb
    | cons b rest =>
      refine ⟨_, by simp only [Bool.not_true, if_true]; rfl, ?_⟩
      have : ([] :: rest.map fun _ => ([] : Bytes)).flatten = [] := by simp
      simp only [hi, Option.getD_none, writeInstructions, pageInstructions, this]
      rfl
  | false =>
    refine ⟨_, by simp only [Bool.not_true]; rfl, ?_⟩
    simp only [hi, Option.getD_none, writeInstructions]
    rfl

/-- **C75, partial.**  When the instructions have been read and the underlying object counts as changed, recalculation
writes the edited instructions, so that reading the streams of the page gives them back.  Missing: that the edits
themselves count as a change. -/
theorem C75_edits_partial (p q : PageContents) (is : List Instr) (es : List ContentEdit) (hp : p.instrs = some is)
    (hb : p.bodies ≠ []) (h : p.edits es = .ok q) (hs : ∀ i ∈ edited is es, InstrSavable i)
    (hn : ∀ i ∈ edited is es, NotImage i) :
    ∃ r, q.touch.recalculate = .ok (true, r) ∧ pageInstructions r.bodies = .ok (edited is es) := by
  have h1 := edits_list hp h
  obtain ⟨-, h2, h3⟩ := edits_frame h
  have hw := C53_write_read_partial _ hs hn
  unfold PageContents.recalculate PageContents.touch
  cases hA : q.isArray with
  | true =>
    cases hbs : q.bodies with
    | nil => exact absurd (h2.symm.trans hbs) hb
    | cons b rest =>
      refine ⟨_, by simp only [Bool.not_true, if_true]; rfl, ?_⟩
      have : ∀ x : Bytes, (x :: rest.map fun _ => ([] : Bytes)).flatten = x := by intro x; simp
      simp only [h1, Option.getD_some, pageInstructions, this]
      exact hw
  | false =>
    refine ⟨_, by simp only [Bool.not_true]; rfl, ?_⟩
    simp only [h1, Option.getD_some, pageInstructions]
    simpa using hw

/-- **C75, positions.**  Insertion up to the end and removal before it are defined, and have the effect of the same
operations on lists. -/
theorem C75_positions_partial (is : List Instr) (n : Nat) (i : Instr) :
    (n ≤ is.length → applyEdit is (.insert n i) = .ok (is.insertIdx n i)) ∧
    (n < is.length → applyEdit is (.remove n) = .ok (is.eraseIdx n)) := by
  constructor
  · intro h
    dsimp only [applyEdit]
    rw [if_pos h]
    congr 1
    induction is generalizing n with
    | nil => cases n with
      | zero => rfl
      | succ n => exact absurd h (by simp)
    | cons a l ih => cases n with
      | zero => rfl
      | succ n => simpa using ih n (by simpa using h)
  · intro h
    dsimp only [applyEdit]
    rw [if_pos h]

/-- Positions outside the collection are not checked. -/
theorem C75_positions_counterexample (is : List Instr) (n : Nat) (i : Instr) :
    (is.length < n → applyEdit is (.insert n i) = .error .ub) ∧
    (is.length ≤ n → applyEdit is (.remove n) = .error .ub) := by
  constructor
  · intro h; dsimp only [applyEdit]; rw [if_neg (by omega)]
  · intro h; dsimp only [applyEdit]; rw [if_neg (by omega)]

/-- **C75, replaced contents.**  Once the contents of a page have been asked for, contents set later are not seen. -/
theorem C75_set_counterexample {α : Type} (s : PageSlot α) (a c : α) (h : s.get.1 = some a) (hne : a ≠ c) :
    (s.get.2.set c).entry = some c ∧ (s.get.2.set c).get.1 ≠ some c := by
  obtain ⟨entry, kept⟩ := s
  cases kept with
  | none =>
    have h : entry = some a := h
    subst h
    exact ⟨rfl, fun e => hne (Option.some.inj e)⟩
  | some k =>
    have h : some k = some a := h
    exact ⟨rfl, fun e => hne (Option.some.inj (h.symm.trans e))⟩

/-- Before the first request the contents that were set are those that are returned. -/
theorem C75_set_partial {α : Type} (entry : Option α) (c : α) :
    ((PageSlot.mk entry none).set c).get.1 = some c := rfl

/-! ### Concrete cases -/

/-- A drawing with a text object. -/
def sampleInstrs : List Instr :=
  [.op ⟨[], b! "q"⟩, .op ⟨[.int 1, .real (-25) 1, .int 0], b! "rg"⟩,
   .text [⟨[.name (b! "F1"), .int 12], b! "Tf"⟩, ⟨[.lit (b! "a(b")], b! "Tj"⟩,
     ⟨[.arr [.lit (b! "x"), .int (-120), .hex (b! "y")]], b! "TJ"⟩],
   .op ⟨[.name (b! "P"), .dict [(b! "MCID", .int 0)]], b! "BDC"⟩, .op ⟨[], b! "Q"⟩]

theorem word_of {w : Bytes} (h1 : w ≠ []) (h2 : ∀ c ∈ w, c ∉ whiteSpace ++ delimiters)
    (h3 : ∀ c ∈ w.head?, ¬ (48 ≤ c.toNat ∧ c.toNat ≤ 57) ∧ c ≠ 43 ∧ c ≠ 45 ∧ c ≠ 46)
    (h4 : w ∉ [b! "true", b! "false", b! "null"]) : OperatorWord w := ⟨h1, h2, h3, h4⟩

theorem sampleInstrs_savable : ∀ i ∈ sampleInstrs, InstrSavable i := by
  intro i hi
  simp only [sampleInstrs, List.mem_cons, List.not_mem_nil, or_false] at hi
  have hno : ∀ o : Obj, Simple o → NoRef o := fun o h => .simple o h
  rcases hi with rfl | rfl | rfl | rfl | rfl
  · exact ⟨⟨by simp, word_of (by decide) (by decide) (by decide) (by decide),
      fits_nil (by decide) (by decide) (by decide)⟩, by decide, by decide⟩
  · refine ⟨⟨?_, word_of (by decide) (by decide) (by decide) (by decide), ?_⟩, by decide, by decide⟩
    · intro x hx
      simp only [List.mem_cons, List.not_mem_nil, or_false] at hx
      rcases hx with rfl | rfl | rfl
      · exact ⟨.int _ (by decide) (by decide), hno _ trivial⟩
      · exact ⟨.real _ _ (by decide), hno _ trivial⟩
      · exact ⟨.int _ (by decide) (by decide), hno _ trivial⟩
    · exact ⟨fun h => absurd h (by decide), fun h => absurd h (by decide), fun h => absurd h (by decide),
        fun h => absurd h (by decide)⟩
  · intro o ho
    simp only [List.mem_cons, List.not_mem_nil, or_false] at ho
    rcases ho with rfl | rfl | rfl
    · refine ⟨⟨?_, word_of (by decide) (by decide) (by decide) (by decide), ?_⟩, by decide⟩
      · intro x hx
        simp only [List.mem_cons, List.not_mem_nil, or_false] at hx
        rcases hx with rfl | rfl
        · exact ⟨.name _, hno _ trivial⟩
        · exact ⟨.int _ (by decide) (by decide), hno _ trivial⟩
      · exact ⟨fun h => absurd h (by decide), fun _ => ⟨_, _, rfl, Or.inl ⟨12, rfl⟩⟩, fun h => absurd h (by decide),
          fun h => absurd h (by decide)⟩
    · refine ⟨⟨?_, word_of (by decide) (by decide) (by decide) (by decide), ?_⟩, by decide⟩
      · intro x hx
        simp only [List.mem_cons, List.not_mem_nil, or_false] at hx
        subst hx
        exact ⟨.lit _, hno _ trivial⟩
      · exact ⟨fun h => absurd h (by decide), fun h => absurd h (by decide), fun _ => ⟨_, Or.inl rfl⟩,
          fun h => absurd h (by decide)⟩
    · refine ⟨⟨?_, word_of (by decide) (by decide) (by decide) (by decide), ?_⟩, by decide⟩
      · intro x hx
        simp only [List.mem_cons, List.not_mem_nil, or_false] at hx
        subst hx
        have : ∀ y ∈ [Obj.lit (b! "x"), .int (-120), .hex (b! "y")], Savable y ∧ NoRef y := by
          intro y hy
          simp only [List.mem_cons, List.not_mem_nil, or_false] at hy
          rcases hy with rfl | rfl | rfl
          · exact ⟨.lit _, hno _ trivial⟩
          · exact ⟨.int _ (by decide) (by decide), hno _ trivial⟩
          · exact ⟨.hex _, hno _ trivial⟩
        exact ⟨.arr _ (fun y hy => (this y hy).1), .arr _ (fun y hy => (this y hy).2)⟩
      · exact ⟨fun h => absurd h (by decide), fun h => absurd h (by decide), fun h => absurd h (by decide),
          fun _ => ⟨_, rfl⟩⟩
  · refine ⟨⟨?_, word_of (by decide) (by decide) (by decide) (by decide), ?_⟩, by decide, by decide⟩
    · intro x hx
      simp only [List.mem_cons, List.not_mem_nil, or_false] at hx
      rcases hx with rfl | rfl
      · exact ⟨.name _, hno _ trivial⟩
      · refine ⟨.dict _ (by unfold SortedKeys; simp) ?_ ?_, .dict _ ?_⟩
        · intro y hy; simp at hy; subst hy; exact .int _ (by decide) (by decide)
        · intro y hy; simp at hy; subst hy; exact Obj.noConfusion
        · intro y hy; simp at hy; subst hy; exact hno _ trivial
    · exact ⟨fun h => absurd h (by decide), fun h => absurd h (by decide), fun h => absurd h (by decide),
        fun h => absurd h (by decide)⟩
  · exact ⟨⟨by simp, word_of (by decide) (by decide) (by decide) (by decide),
      fits_nil (by decide) (by decide) (by decide)⟩, by decide, by decide⟩

theorem sampleInstrs_notImage : ∀ i ∈ sampleInstrs, NotImage i := by
  intro i hi
  simp only [sampleInstrs, List.mem_cons, List.not_mem_nil, or_false] at hi
  rcases hi with rfl | rfl | rfl | rfl | rfl <;> trivial

/-- The sample is written and read back; `C53_reads` applies to its text with any separator in front. -/
example : readInstructions (writeInstructions sampleInstrs) = .ok sampleInstrs :=
  C53_write_read_partial _ sampleInstrs_savable sampleInstrs_notImage
example : ContentText (sampleInstrs.map reread) (b! "%c\n" ++ writeInstructions sampleInstrs) :=
  writeInstructions_text _ sampleInstrs_savable _ (.comment (b! "c") 10 [] (by decide) (Or.inr rfl) .nil)

/-- An image that can be written, and what becomes of it. -/
example : InstrSavable (.image [(b! "W", .int 2)] (b! "ab")) :=
  ⟨by unfold SortedKeys; simp, by
    intro y hy; simp at hy; subst hy
    exact ⟨.int _ (by decide) (by decide), .simple _ trivial, Obj.noConfusion⟩, by simp [NoEndMark]⟩
example : readInstructions (writeInstructions [.image [(b! "W", .int 2)] (b! "ab"), .op ⟨[], b! "Q"⟩]) =
    .ok [.image [(b! "W", .int 2)] (b! "\nab"), .op ⟨[], b! "Q"⟩] := rfl

/-- An odd spelling is read, and meets the conditions of `C53_stable_partial`. -/
example : readInstructions (b! "+01 .5[(a) <62 >]d%x\nBT/F 1 Tf ET") =
    .ok [.op ⟨[.int 1, .real 5 1, .arr [.lit (b! "a"), .hex (b! "b")]], b! "d"⟩,
      .text [⟨[.name (b! "F"), .int 1], b! "Tf"⟩]] := rfl

/-- C76 applies to broken input. -/
example : ¬ b! "BI" <:+: b! "BT ( << ] 1" := by decide
example : readInstructions (b! "BT 1 ] 2") = .ok [.text [⟨[.int 1], []⟩, ⟨[.int 2], []⟩]] := rfl

/-- C77: two streams, the first of which ends with a line end. -/
example : pageInstructions [b! "q\n", b! "Q"] = .ok [.op ⟨[], b! "q"⟩, .op ⟨[], b! "Q"⟩] := rfl
example : AllParted [b! "q\n", b! "Q", b! " q"] :=
  ⟨Or.inr ⟨10, rfl, by decide⟩, Or.inl (by decide), trivial⟩

/-- C75: a page whose instructions were read, edited and then written after another change of the stream. -/
example : (PageContents.edits ⟨false, [b! "q"], false, some sampleInstrs⟩ [.remove 0, .insert 2 (.op ⟨[], b! "n"⟩)]).isOk =
    true := rfl
example : (PageContents.edits ⟨true, [b! "q ", b! "Q"], false, none⟩ [.append (.op ⟨[], b! "n"⟩)]) =
    .ok ⟨true, [b! "q ", b! "Q"], false, some [.op ⟨[], b! "q"⟩, .op ⟨[], b! "Q"⟩, .op ⟨[], b! "n"⟩]⟩ := rfl

end VPdf
