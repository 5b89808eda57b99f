/-
  C54: lines.  C73: reading at a position.  C74: whole streams, and reading back what was written.
-/
import Verif.Lemmas.Stream

namespace VPdf
open Spec

/-- **C54**. Reading a line from a stream that has not met its end returns the bytes up to the first CR, LF or CR LF, or up to the
end, and leaves the reader behind the line end. -/
theorem C54_line (s : IStream) (hgood : s.eof = false ∧ s.fail = false) (f : Nat) (hf : s.data.length < f) :
    ∃ l s', s.readline f = .ok (l, s') ∧ FirstLine (s.data.drop s.getPos) l (s.data.drop s'.getPos) ∧
      s'.data = s.data ∧ (s.getPos ≤ s.data.length → s.getPos ≤ s'.getPos ∧ s'.getPos ≤ s.data.length) ∧
      s'.fail = false := by
  obtain ⟨l, s', e1, e2, e3, e4, e5, e6, e7, e8, e9⟩ := readline_spec (f := f) ((good_iff s).mpr hgood) (by omega)
  exact ⟨l, s', e1, e2, e3, fun h => ⟨e6, e9 h⟩, e5⟩

example : (IStream.ofBytes false (b! "ab\r\ncd\ref")).readline 100 =
    .ok (b! "ab", { IStream.ofBytes false (b! "ab\r\ncd\ref") with getPos := 4 }) := by decide +kernel

/-- **C54**: the parsers of this model read lines with the function `readLine`, which is what the stream does. -/
theorem C54_refines (s : IStream) (hgood : s.eof = false ∧ s.fail = false) (f : Nat) (hf : s.data.length < f) :
    ∃ s', s.readline f = .ok ((readLine (s.data.drop s.getPos)).1, s') ∧
      s.data.drop s'.getPos = (readLine (s.data.drop s.getPos)).2 := by
  obtain ⟨l, s', e1, e2, -⟩ := C54_line s hgood f hf
  have := readLine_of_first e2
  exact ⟨s', by rw [this]; exact e1, by rw [this]⟩

/-- **C54**. Reading a line from a stream that has met its end, or has failed, is an error. -/
theorem C54_behind_end (s : IStream) (h : s.eof = true ∨ s.fail = true) (f : Nat) : s.readline f = .error .throw := by
  rw [IStream.readline]
  rcases h with h | h
  · simp [h]
  · simp [h]

example : (((IStream.ofBytes true (b! "a")).apply (.read 2)).readline 5) = .error .throw := by decide +kernel

/-- **C54**. Reading lines until the end is met: every line is without CR and LF, and the lines together with their line ends are
the input.  Only the last line can be without a line end. -/
theorem C54_lines (s : IStream) (hgood : s.eof = false ∧ s.fail = false) (f : Nat) (hf : s.data.length + 1 < f) :
    ∃ ls terms s', s.readLines f f = .ok (ls, s') ∧ s'.eof = true ∧ terms.length = ls.length ∧
      (∀ l ∈ ls, ∀ c ∈ l, c ≠ 13 ∧ c ≠ 10) ∧
      (∀ t ∈ terms, t ∈ ([[], [13], [10], [13, 10]] : List Bytes)) ∧
      (∀ t ∈ terms.dropLast, t ≠ []) ∧
      s.data.drop s.getPos = (List.zipWith (· ++ ·) ls terms).flatten := by
  obtain ⟨ls, terms, s', e1, e2, e3, e⟩ := readLines_spec f s f ((good_iff s).mpr hgood) (by omega) (by omega)
  exact ⟨ls, terms, s', e1, e2, e⟩

-- a line feed at the end is followed by one more empty line, a carriage return is not
example : ((IStream.ofBytes false (b! "a\n\rb\n")).readLines 100 100).map (·.1) =
    .ok [b! "a", [], b! "b", []] := by decide +kernel
example : ((IStream.ofBytes false (b! "a\n\rb\r")).readLines 100 100).map (·.1) =
    .ok [b! "a", [], b! "b"] := by decide +kernel

/-- **C73** (for offsets other than -1, see the counterexample). Whatever was done with the stream before, after positioning it
to a place of the data a read returns the data from this place. -/
theorem C73_read_partial (file : Bool) (d : Bytes) (ops : List StreamOp) (p : Int) (way : SeekDir) (n : Nat)
    (hp : p ≠ -1) (q : Nat)
    (hq : (q : Int) = match way with
      | .beginning => p
      | .current => (ops.foldl IStream.apply (IStream.ofBytes file d)).getPos + p
      | .end_ => d.length + p)
    (hle : q ≤ d.length) :
    let s := (ops.foldl IStream.apply (IStream.ofBytes file d)).setPosition p way
    (s.read n).1 = (d.drop q).take n ∧ s.position.1 = q := by
  obtain ⟨h1, h2⟩ := applies_same ops (IStream.ofBytes file d)
  generalize ops.foldl IStream.apply (IStream.ofBytes file d) = s0 at *
  have h1 : s0.data = d := h1
  have ht : s0.target p way = q := by
    rw [hq]
    cases way with
    | beginning => rfl
    | current => rfl
    | end_ => rw [IStream.target, h1]
  have hs : s0.seekable (s0.target p way) = true := by
    rw [ht, IStream.seekable, h1]
    have h3 : (q : Int) ≤ (d.length : Int) := by omega
    simp [h3]
  obtain ⟨g1, g2⟩ := setPosition_spec s0 p way hp hs
  have hd : (s0.setPosition p way).data = d := by
    have := (apply_same s0 (.setPosition p way)).1
    exact this.trans h1
  have hg2 : (s0.setPosition p way).getPos = q := by
    rw [ht] at g2
    exact_mod_cast g2
  dsimp only
  refine ⟨?_, ?_⟩
  · rw [read_good g1, hd, hg2]
  · obtain ⟨he, hf⟩ := (good_iff _).mp g1
    rw [IStream.position, if_neg (by simp [he]), IStream.tellg, if_pos g1, hg2]

-- after a failed read
example : ((([.read 100, .readline, .setPosition 77 .end_, .position].foldl IStream.apply
    (IStream.ofBytes false (b! "hello"))).setPosition (-4) .end_).read 3).1 = b! "ell" := by decide +kernel

/-- The claim **C73** is false for the offset -1 relative to the current position or the end: it is taken for the "bad offset" and
only sets the end flag, so that nothing can be read, from any data and after any history. -/
theorem C73_counterexample (file : Bool) (d : Bytes) (ops : List StreamOp) (way : SeekDir) (n : Nat) :
    (((ops.foldl IStream.apply (IStream.ofBytes file d)).setPosition (-1) way).read n).1 = [] := by
  generalize (ops.foldl IStream.apply (IStream.ofBytes file d)) = s
  have : (s.setPosition (-1) way).eof = true := by
    rw [IStream.setPosition]
    simp
  rw [IStream.read, IStream.rawRead, if_neg (by simp [IStream.good, this])]

/-- **C74**. Reading a whole stream into a buffer returns everything from the current position, however long it is. -/
theorem C74_whole (s : IStream) (hgood : s.eof = false ∧ s.fail = false) (f : Nat) (hf : s.data.length + 1 < f) :
    ∃ s', s.toBuffer f = .ok (s.data.drop s.getPos, s') := by
  obtain ⟨s', h⟩ := toBufferLoop_spec 4096 (by omega) f s [] ((good_iff s).mpr hgood) (by omega)
  exact ⟨s', by rw [IStream.toBuffer, h, List.nil_append]⟩

example : ((IStream.ofBytes false (b! "hello")).apply (.read 2)).toBuffer 10 =
    .ok (b! "llo", { IStream.ofBytes false (b! "hello") with getPos := 5, eof := true, fail := true }) := by decide +kernel

/-- **C74** (for streams that have not met their end, see the counterexample). What is written to a new stream in memory, in any
number of pieces, can be read from its start. -/
theorem C74_write_partial (pieces : List Bytes) (f : Nat) (hf : pieces.flatten.length + 1 < f) :
    ∃ s', (pieces.foldl IStream.write (IStream.ofBytes false [])).toBuffer f = .ok (pieces.flatten, s') := by
  have key : ∀ (pieces : List Bytes) (d : Bytes),
      pieces.foldl IStream.write (IStream.ofBytes false d) = IStream.ofBytes false (d ++ pieces.flatten) := by
    intro pieces
    induction pieces with
    | nil => intro d; simp
    | cons p ps ih =>
      intro d
      have : (IStream.ofBytes false d).write p = IStream.ofBytes false (d ++ p) := by
        simp [IStream.write, IStream.ofBytes, IStream.good]
      rw [List.foldl_cons, this, ih, List.flatten_cons, List.append_assoc]
  rw [key, List.nil_append]
  exact C74_whole _ ⟨rfl, rfl⟩ f hf

example : (b! "ab" ++ (b! "cd" ++ [])).length + 1 < 10 := by decide

/-- **C74** (for streams that have not met their end). Data written at a position of the content replaces what is there, byte by
byte, extends the content where it is longer, and everything else is as before. -/
theorem C74_overwrite_partial (content more : Bytes) (q : Nat) (hq : q ≤ content.length) (f : Nat)
    (hf : content.length + more.length + 1 < f) :
    ∃ b s', (((IStream.ofBytes false content).setOutputPosition q).write more).toBuffer f = .ok (b, s') ∧
      b.length = max content.length (q + more.length) ∧
      ∀ i, i < b.length → b[i]? = if q ≤ i ∧ i < q + more.length then more[i - q]? else content[i]? := by
  have e : ((IStream.ofBytes false content).setOutputPosition q).write more =
      { IStream.ofBytes false content with
        data := content.take q ++ more ++ content.drop (q + more.length), putPos := q + more.length } := by
    have hq' : (q : Int) ≤ content.length := by omega
    simp [IStream.setOutputPosition, IStream.write, IStream.ofBytes, IStream.good, hq']
  have hlen : (content.take q ++ more ++ content.drop (q + more.length)).length = max content.length (q + more.length) := by
    simp only [List.length_append, List.length_take, List.length_drop]; omega
  rw [e]
  obtain ⟨s', h⟩ := C74_whole { IStream.ofBytes false content with
        data := content.take q ++ more ++ content.drop (q + more.length), putPos := q + more.length } ⟨rfl, rfl⟩ f
    (by show (content.take q ++ more ++ content.drop (q + more.length)).length + 1 < f; rw [hlen]; omega)
  refine ⟨_, s', h, hlen, fun i hi => ?_⟩
  change (List.drop 0 (content.take q ++ more ++ content.drop (q + more.length)))[i]? = _
  rw [List.drop_zero, List.append_assoc, List.getElem?_append, List.length_take, Nat.min_eq_left hq]
  by_cases h1 : i < q
  · rw [if_pos h1, if_neg (by omega), List.getElem?_take_of_lt h1]
  · rw [if_neg h1, List.getElem?_append]
    by_cases h2 : i < q + more.length
    · rw [if_pos (by omega), if_pos (by omega)]
    · rw [if_neg (by omega), if_neg (by omega), List.getElem?_drop]
      congr 1; omega

example : ((((IStream.ofBytes false (b! "abcdef")).setOutputPosition 2).write (b! "XY")).toBuffer 20).toOption.map (·.1) =
    some (b! "abXYef") := by decide +kernel

/-- The claim **C74** is false once a reader has met the end: for every content and every data written afterwards, the write is
silently dropped. -/
theorem C74_counterexample (d more : Bytes) (n : Nat) (hn : d.length < n) :
    (((IStream.ofBytes false d).read n).2.write more).data = d := by
  have h1 : (((IStream.ofBytes false d).read n).2).good = false := by
    have hn' : ¬ (List.take n (List.drop 0 d)).length = n := by rw [List.length_take, List.drop_zero]; omega
    have hg : (IStream.ofBytes false d).good = true := rfl
    rw [IStream.read, IStream.rawRead, if_pos hg]
    change (if (List.take n (List.drop 0 d)).length = n then _ else _ : Bytes × IStream).2.good = false
    rw [if_neg hn']
    rfl
  rw [IStream.write, if_neg (by rw [h1]; simp)]
  have := (apply_same (IStream.ofBytes false d) (.read n)).1
  exact this

end VPdf
