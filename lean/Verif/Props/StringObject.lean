import Verif.Spec.StringObject
import Verif.Props.Lexical
import Verif.Props.Objects
/-
  C123: a string keeps the value that was set or shown, and this value is what is written.
-/
namespace VPdf
open Spec

theorem PString.get_hex (x : PString) : x.get.1.hex = x.hex := by
  unfold PString.get
  cases x.value with
  | some d => rfl
  | none => cases x.decode <;> rfl

theorem PString.get_get (x : PString) : x.get.1.get.2 = x.get.2 := by
  unfold PString.get
  cases hv : x.value with
  | some d => simp [hv]
  | none => cases hd : x.decode <;> simp [hv, hd]

theorem PString.get_value (x : PString) (d : Bytes) (h : x.get.2 = .ok d) : x.get.1.value = some d := by
  unfold PString.get at *
  cases hv : x.value with
  | some e => simp_all
  | none => cases hd : x.decode <;> simp_all

/-- The string `s` is of the kind `hex` and answers `r` when it is asked for its value. -/
def TextWorld.Answers (w : TextWorld) (s : Nat) (hex : Bool) (r : Res Bytes) : Prop :=
  ∃ x, w.strings[s]? = some x ∧ x.hex = hex ∧ x.get.2 = r

theorem answers_add {w : TextWorld} {s : Nat} {h : Bool} {r : Res Bytes} (x : PString) (a : w.Answers s h r) :
    (w.add x).1.Answers s h r := by
  obtain ⟨y, hy, e⟩ := a
  exact ⟨y, by rw [TextWorld.add]; simp only; rw [List.getElem?_append_left (by
    exact (List.getElem?_eq_some_iff.1 hy).1)]; exact hy, e⟩

theorem answers_set {w : TextWorld} {s t : Nat} {h : Bool} {r : Res Bytes} {bs : List Bytes} (z : PString) (a : w.Answers s h r)
    (ht : t ≠ s ∨ z.hex = h ∧ z.get.2 = r) :
    TextWorld.Answers ⟨w.strings.set t z, bs⟩ s h r := by
  obtain ⟨y, hy, e⟩ := a
  have hl := (List.getElem?_eq_some_iff.1 hy).1
  by_cases hts : t = s
  · subst hts
    refine ⟨z, by simp [hl], ?_⟩
    rcases ht with ht | ht
    · exact absurd rfl ht
    · exact ht
  · exact ⟨y, by simp only; rw [List.getElem?_set_ne hts]; exact hy, e⟩

theorem answers_on {w : TextWorld} {s t : Nat} {h : Bool} {r : Res Bytes} (f : PString → PString × Res TextAnswer)
    (a : w.Answers s h r) (ht : t ≠ s ∨ ∀ x, (f x).1.hex = x.hex ∧ (f x).1.get.2 = x.get.2) :
    (w.on t f).1.Answers s h r := by
  unfold TextWorld.on
  cases hx : w.strings[t]? with
  | none => exact a
  | some x =>
    refine answers_set _ a ?_
    by_cases hts : t = s
    · subst hts
      right
      obtain ⟨y, hy, e1, e2⟩ := a
      rw [hx] at hy; cases hy
      rcases ht with ht | ht
      · exact absurd rfl ht
      · exact ⟨(ht x).1.trans e1, (ht x).2.trans e2⟩
    · exact .inl hts

theorem answers_step {w : TextWorld} {s : Nat} {h : Bool} {r : Res Bytes} (c : TextCall) (a : w.Answers s h r)
    (hc : ¬ Revalues s c) : (w.step c).1.Answers s h r := by
  have given : ∀ b f, (∀ d, (f d : TextWorld × Res TextAnswer).1.Answers s h r) → (w.given b f).1.Answers s h r := by
    intro b f hf
    unfold TextWorld.given
    cases w.contents b with
    | none => exact a
    | some d => exact hf d
  cases c with
  | makeBuffer d => exact a
  | create hex => exact answers_add _ a
  | load hex raw => exact answers_add _ a
  | fromEncoded hex b => exact given _ _ fun d => answers_add _ a
  | fromDecoded hex b => exact given _ _ fun d => answers_add _ a
  | getValue t => exact answers_on _ a (.inr fun x => ⟨x.get_hex, x.get_get⟩)
  | setValue t b =>
    have ht : t ≠ s := fun e => hc e
    simp only [TextWorld.step]
    split
    · exact a
    · exact given _ _ fun d => answers_on _ a (.inl ht)
  | getData b => exact given _ _ fun d => a
  | setData b d =>
    refine given _ _ fun _ => ?_
    cases b with
    | own i => exact a
    | value t => exact answers_on _ a (.inl fun e => hc e)
  | clone t =>
    simp only [TextWorld.step]
    cases hx : w.strings[t]? with
    | none => exact a
    | some x =>
      simp only
      cases hg : x.get.2 with
      | error e => exact a
      | ok d =>
        refine answers_add _ (answers_set _ a ?_)
        by_cases hts : t = s
        · subst hts
          obtain ⟨y, hy, e1, e2⟩ := a
          rw [hx] at hy; cases hy
          exact .inr ⟨x.get_hex.trans e1, x.get_get.trans e2⟩
        · exact .inl hts
  | write t => exact answers_on _ a (.inr fun x => ⟨x.get_hex, x.get_get⟩)

theorem answers_run {s : Nat} {h : Bool} {r : Res Bytes} (cs : List TextCall) :
    ∀ {w : TextWorld}, w.Answers s h r → (∀ c ∈ cs, ¬ Revalues s c) → (w.run cs).Answers s h r := by
  induction cs with
  | nil => intro w a _; exact a
  | cons c cs ih =>
    intro w a hc
    exact ih (answers_step c a (hc c (by simp))) fun c' h' => hc c' (by simp [h'])

theorem answers_sees {w : TextWorld} {s : Nat} {h : Bool} {d : Bytes} (a : w.Answers s h (.ok d)) : SeesValue w s d := by
  obtain ⟨x, hx, _, hg⟩ := a
  have hl := (List.getElem?_eq_some_iff.1 hx).1
  refine ⟨.value s, ?_, ?_⟩
  · simp [TextWorld.step, TextWorld.on, hx, hg, Except.map]
  · have := x.get_value d hg
    obtain ⟨_, rfl⟩ := List.getElem?_eq_some_iff.1 hx
    simp [TextWorld.step, TextWorld.on, TextWorld.given, TextWorld.contents, hl, this]

theorem sees_answers {w : TextWorld} {s : Nat} {d : Bytes} (a : SeesValue w s d) : ∃ h, w.Answers s h (.ok d) := by
  obtain ⟨b, h1, h2⟩ := a
  cases hx : w.strings[s]? with
  | none => simp [TextWorld.step, TextWorld.on, hx] at h1
  | some x =>
    have hl := (List.getElem?_eq_some_iff.1 hx).1
    cases hg : x.get.2 with
    | error e => simp [TextWorld.step, TextWorld.on, hx, hg, Except.map] at h1
    | ok v =>
      have hv := x.get_value v hg
      simp only [TextWorld.step, TextWorld.on, hx, hg, Except.map, Except.ok.injEq, TextAnswer.buffer.injEq] at h1
      subst h1
      obtain ⟨_, rfl⟩ := List.getElem?_eq_some_iff.1 hx
      simp [TextWorld.step, TextWorld.on, TextWorld.given, TextWorld.contents, hl, hv] at h2
      exact ⟨_, _, hx, rfl, h2 ▸ hg⟩

theorem add_answers (w : TextWorld) (x : PString) : (w.add x).1.Answers w.strings.length x.hex x.get.2 :=
  ⟨x, by simp [TextWorld.add], rfl, rfl⟩

theorem load_sees (w : TextWorld) (s : Nat) (hex : Bool) (raw d : Bytes) (hd : (PString.mk hex raw none).decode = .ok d)
    (hs : (w.step (.load hex raw)).2 = .ok (.string s)) : SeesValue (w.step (.load hex raw)).1 s d := by
  simp only [TextWorld.step, TextWorld.add, Except.ok.injEq, TextAnswer.string.injEq] at hs
  subst hs
  have := add_answers w ⟨hex, raw, none⟩
  exact answers_sees (h := hex) (by simpa [PString.get, hd, TextWorld.step] using this)

theorem text_textOf (hex : Bool) (raw : Bytes) (v : Option Bytes) (d : Bytes) : TextOf ((PString.mk hex raw v).text d) d := by
  cases hex with
  | false =>
    refine ⟨false, fun dict rest => ?_⟩
    obtain ⟨raw', h1, h2⟩ := C02_literal_roundtrip dict d rest
    exact ⟨raw', by simpa [PString.text] using h1, fun w s hs => load_sees w s _ _ _ (by simpa [PString.decode] using h2) hs⟩
  | true =>
    refine ⟨true, fun dict rest => ?_⟩
    obtain ⟨raw', h1, h2⟩ := C03_hex_roundtrip dict d rest
    exact ⟨raw', by simpa [PString.text] using h1, fun w s hs => load_sees w s _ _ _ (by simpa [PString.decode] using h2) hs⟩

theorem answers_writes {w : TextWorld} {s : Nat} {h : Bool} {d : Bytes} (a : w.Answers s h (.ok d)) : WritesValue w s d := by
  obtain ⟨x, hx, _, hg⟩ := a
  exact ⟨x.text d, by simp [TextWorld.step, TextWorld.on, hx, hg, Except.map], text_textOf _ _ _ _⟩

theorem gives_answers {w : TextWorld} {s : Nat} {d : Bytes} {c : TextCall} (g : GivesValue w s d c) :
    ∃ h, (w.step c).1.Answers s h (.ok d) := by
  have data : ∀ b, (w.step (.getData b)).2 = .ok (.data d) → w.contents b = some d := by
    intro b h
    simp only [TextWorld.step, TextWorld.given] at h
    cases hb : w.contents b with
    | none => simp [hb] at h
    | some e => simpa [hb] using h
  cases g with
  | make hex b given ok =>
    have hb := data b given
    simp only [TextWorld.step, TextWorld.given, hb, TextWorld.add, Except.ok.injEq, TextAnswer.string.injEq] at ok
    subst ok
    exact ⟨hex, by
      have := add_answers w ⟨hex, [], some d⟩
      simpa [TextWorld.step, TextWorld.given, hb, PString.get] using this⟩
  | set b given ok =>
    have hb := data b given
    by_cases hs : b = .value s
    · simp [TextWorld.step, hs] at ok
    · cases hx : w.strings[s]? with
      | none => simp [TextWorld.step, hs, TextWorld.given, hb, TextWorld.on, hx] at ok
      | some x =>
        have hl := (List.getElem?_eq_some_iff.1 hx).1
        refine ⟨x.hex, { x with value := some d }, ?_, rfl, rfl⟩
        obtain ⟨_, rfl⟩ := List.getElem?_eq_some_iff.1 hx
        simp [TextWorld.step, hs, TextWorld.given, hb, TextWorld.on, hl]
  | edit ok =>
    cases hx : w.strings[s]? with
    | none => simp [TextWorld.step, TextWorld.given, TextWorld.contents, hx] at ok
    | some x =>
      have hl := (List.getElem?_eq_some_iff.1 hx).1
      cases hv : x.value with
      | none => simp [TextWorld.step, TextWorld.given, TextWorld.contents, hx, hv] at ok
      | some e =>
        refine ⟨x.hex, { x with value := some d }, ?_, rfl, rfl⟩
        obtain ⟨_, rfl⟩ := List.getElem?_eq_some_iff.1 hx
        simp [TextWorld.step, TextWorld.given, TextWorld.contents, TextWorld.on, hl, hv]
  | read ok shown =>
    obtain ⟨h, a⟩ := sees_answers ⟨_, ok, shown⟩
    exact ⟨h, answers_step _ a (by simp [Revalues])⟩
  | copy t shown ok =>
    obtain ⟨h, x, hx, e1, hg⟩ := sees_answers shown
    simp only [TextWorld.step, hx, hg, TextWorld.add, Except.ok.injEq, TextAnswer.string.injEq, List.length_set] at ok
    subst ok
    refine ⟨x.hex, ⟨x.hex, x.raw, some d⟩, ?_, rfl, rfl⟩
    simp [TextWorld.step, hx, hg, TextWorld.add]

theorem text_run_cons (pre post : List TextCall) (c : TextCall) :
    TextWorld.start.run (pre ++ c :: post) = (((TextWorld.start.run pre).step c).1).run post := by
  simp [TextWorld.run, List.foldl_append]

/-- **C123 (the value).** After any calls, if a call gives a string a value or shows it — the string is made from the contents of a
buffer, set to them, edited through the buffer of its value, read, or copied from a string with this value — then after any
further calls that do not give this string another value, whatever they do to other strings, to the buffer the value was taken from,
to the original of a copy or to copies, the program still sees this value, and what is written for the string is one token which,
whatever follows it, is read as a string with this value. -/
theorem C123_value (pre post : List TextCall) (c : TextCall) (s : Nat) (d : Bytes)
    (g : GivesValue (TextWorld.start.run pre) s d c) (hp : ∀ c' ∈ post, ¬ Revalues s c') :
    SeesValue (TextWorld.start.run (pre ++ c :: post)) s d ∧ WritesValue (TextWorld.start.run (pre ++ c :: post)) s d := by
  obtain ⟨h, a⟩ := gives_answers g
  have := answers_run post a hp
  rw [text_run_cons]
  exact ⟨answers_sees this, answers_writes this⟩

theorem rawOf_decode {hex : Bool} {raw d : Bytes} (h : RawOf hex raw d) : (PString.mk hex raw none).decode = .ok d := by
  cases hex with
  | false => exact decodeLiteral_body (by simpa [RawOf] using h)
  | true => exact decodeHexPairs_spec _ _ (by simpa [RawOf] using h)

theorem load_answers (w : TextWorld) (c : TextCall) (hex : Bool) (raw : Bytes) (s : Nat)
    (hc : c = .load hex raw ∨ ∃ b, (w.step (.getData b)).2 = .ok (.data raw) ∧ c = .fromEncoded hex b)
    (ok : (w.step c).2 = .ok (.string s)) : (w.step c).1.Answers s hex (PString.mk hex raw none).get.2 := by
  rcases hc with rfl | ⟨b, hb, rfl⟩
  · simp only [TextWorld.step, TextWorld.add, Except.ok.injEq, TextAnswer.string.injEq] at ok
    subst ok
    exact add_answers w _
  · simp only [TextWorld.step, TextWorld.given] at hb ok ⊢
    cases hx : w.contents b with
    | none => simp [hx] at hb
    | some e =>
      simp only [hx, Except.ok.injEq, TextAnswer.data.injEq] at hb
      subst hb
      simp only [hx, TextWorld.add, Except.ok.injEq, TextAnswer.string.injEq] at ok
      subst ok
      exact add_answers w _

/-- **C123 (encoded text).** A string made from the text between the brackets of a literal or hexadecimal string, from a file or
from a buffer, has the value that this text denotes, and keeps it and is written with it until it is given another one. -/
theorem C123_encoded (pre post : List TextCall) (c : TextCall) (hex : Bool) (raw d : Bytes) (s : Nat)
    (hc : c = .load hex raw ∨ ∃ b, ((TextWorld.start.run pre).step (.getData b)).2 = .ok (.data raw) ∧ c = .fromEncoded hex b)
    (hr : RawOf hex raw d) (ok : ((TextWorld.start.run pre).step c).2 = .ok (.string s)) (hp : ∀ c' ∈ post, ¬ Revalues s c') :
    SeesValue (TextWorld.start.run (pre ++ c :: post)) s d ∧ WritesValue (TextWorld.start.run (pre ++ c :: post)) s d := by
  have a := load_answers _ c hex raw s hc ok
  have e : (PString.mk hex raw none).get.2 = .ok d := by simp [PString.get, rawOf_decode hr]
  rw [e] at a
  have := answers_run post a hp
  rw [text_run_cons]
  exact ⟨answers_sees this, answers_writes this⟩

/-- **C123 (text that is no string).** A string made from text that cannot be decoded answers the same failure each time it is
asked for its value, written or copied, until it is given a value: it never shows or writes part of it. -/
theorem C123_refused (pre post : List TextCall) (c : TextCall) (hex : Bool) (raw : Bytes) (s : Nat) (e : Fault)
    (hc : c = .load hex raw ∨ ∃ b, ((TextWorld.start.run pre).step (.getData b)).2 = .ok (.data raw) ∧ c = .fromEncoded hex b)
    (hr : (if hex then decodeHexPairs raw else decodeLiteral 0 raw) = .error e)
    (ok : ((TextWorld.start.run pre).step c).2 = .ok (.string s)) (hp : ∀ c' ∈ post, ¬ Revalues s c') :
    let w := TextWorld.start.run (pre ++ c :: post)
    (w.step (.getValue s)).2 = .error e ∧ (w.step (.write s)).2 = .error e ∧ (w.step (.clone s)).2 = .error e := by
  have a := load_answers _ c hex raw s hc ok
  have h : (PString.mk hex raw none).get.2 = .error e := by
    have : (PString.mk hex raw none).decode = .error e := hr
    simp [PString.get, this]
  rw [h] at a
  obtain ⟨x, hx, -, hg⟩ := answers_run post a hp
  intro w
  have hw : w.strings[s]? = some x := by simp only [w]; rw [text_run_cons]; exact hx
  exact ⟨by simp [TextWorld.step, TextWorld.on, hw, hg, Except.map], by simp [TextWorld.step, TextWorld.on, hw, hg, Except.map],
    by simp [TextWorld.step, hw, hg]⟩

/-- **C123 (looking is harmless).** Reading, writing or copying a string, once or repeatedly, changes neither what any string shows
nor what is written for it, nor any buffer of the program. -/
theorem C123_looking (w : TextWorld) (c : TextCall) (s t : Nat) (hc : c = .getValue t ∨ c = .write t ∨ c = .clone t)
    (hs : s < w.strings.length) :
    (((w.step c).1).step (.getValue s)).2 = (w.step (.getValue s)).2 ∧ (((w.step c).1).step (.write s)).2 = (w.step (.write s)).2 ∧
    ∀ i, (((w.step c).1).step (.getData (.own i))).2 = (w.step (.getData (.own i))).2 := by
  obtain ⟨x, hx⟩ : ∃ x, w.strings[s]? = some x := ⟨w.strings[s], by simp [hs]⟩
  have hb : (w.step c).1.buffers = w.buffers := by
    rcases hc with rfl | rfl | rfl <;> simp only [TextWorld.step, TextWorld.on]
    · split <;> rfl
    · split <;> rfl
    · split
      · rfl
      · split <;> rfl
  obtain ⟨y, hy, e1, e2⟩ := answers_step (h := x.hex) (r := x.get.2) c ⟨x, hx, rfl, rfl⟩
    (by rcases hc with rfl | rfl | rfl <;> simp [Revalues])
  refine ⟨?_, ?_, ?_⟩
  · generalize hw : (w.step c).1 = w' at *
    simp only [TextWorld.step, TextWorld.on, hx, hy, e2]
  · generalize hw : (w.step c).1 = w' at *
    simp only [TextWorld.step, TextWorld.on, hx, hy, e2, PString.text, e1]
  · intro i
    generalize hw : (w.step c).1 = w' at *
    simp only [TextWorld.step, TextWorld.given, TextWorld.contents, hb]
    cases w.buffers[i]? <;> rfl

/-- **C123 (its own buffer).** Setting a string to the buffer that it handed out itself is undefined behaviour, whatever the string:
after any calls after which the value of a string was read. -/
theorem C123_self_counterexample (calls : List TextCall) (s : Nat) (b : TextBuffer)
    (h : ((TextWorld.start.run calls).step (.getValue s)).2 = .ok (.buffer b)) :
    ((TextWorld.start.run (calls ++ [.getValue s])).step (.setValue s b)).2 = .error .ub := by
  generalize TextWorld.start.run calls = w at h
  have hb : b = .value s := by
    simp only [TextWorld.step, TextWorld.on] at h
    cases hx : w.strings[s]? with
    | none => simp [hx] at h
    | some x =>
      cases hg : x.get.2 with
      | error e => simp [hx, hg, Except.map] at h
      | ok v => simpa [hx, hg, Except.map, eq_comm] using h
  simp [TextWorld.step, hb]

/-- A small program: a buffer, a string from it, the buffer changed, a copy, the copy changed. -/
def textProgram : List TextCall :=
  [.makeBuffer (b! "a(b"), .fromDecoded false (.own 0), .setData (.own 0) (b! "x"), .clone 0, .setValue 1 (.own 0)]

example : GivesValue (TextWorld.start.run [.makeBuffer (b! "a(b")]) 0 (b! "a(b") (.fromDecoded false (.own 0)) :=
  .make _ _ (by decide +kernel) (by decide +kernel)
example : ((TextWorld.start.run textProgram).step (.write 0)).2 = .ok (.data (b! "(a\\(b)")) := by decide +kernel
example : ((TextWorld.start.run textProgram).step (.write 1)).2 = .ok (.data (b! "(x)")) := by decide +kernel
example : RawOf true (b! "4a4B7") (b! "JKp") := by
  show hexBytes (b! "4a4B7") = some (b! "JKp"); decide +kernel
example : ((TextWorld.start.run [.load true (b! "4x")]).step (.getValue 0)).2 = .ok (.buffer (.value 0)) ∧
    ((TextWorld.start.run [.load true (b! "x4")]).step (.getValue 0)).2 ≠ .ok (.buffer (.value 0)) := by decide +kernel

end VPdf
