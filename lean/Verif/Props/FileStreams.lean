/-
  C125: a file that is opened for reading and writing.
-/
import Verif.Props.StreamHistory
import Verif.Model.FileStreams
import Verif.Spec.FileStreams

namespace VPdf
open Spec

namespace FileStreams

/-- The stream shows what the view has for reading, and is otherwise the given file or string stream. -/
structure InputShows (file : Bool) (put : Nat) (s : IStream) (v : FileView) : Prop where
  data : s.data = v.content
  file : s.file = file
  get : s.getPos = v.readAt
  put : s.putPos = put
  inGet : v.readAt ≤ v.content.length
  flags : s.good = !v.ended
  atEnd : v.ended = true → v.readAt = v.content.length

/-- The calls that read. -/
def IsInput : PipeCall → Prop
  | .read _ | .peek | .get | .whole | .tellIn => True
  | _ => False

open StreamHistory

/-- A call that reads, on any stream. -/
theorem input_step {file : Bool} {put : Nat} {s : IStream} {v : FileView} (h : InputShows file put s v) (c : PipeCall)
    (hr : IsInput c) (hc : v.Allowed c) :
    (s.pipeCall c).1 = v.expected c ∧ InputShows file put (s.pipeCall c).2 (v.after c) := by
  obtain ⟨h1, h2, h3, h4, h5, h7, h8⟩ := h
  obtain ⟨content, readAt, writeAt, ended⟩ := v
  obtain ⟨data, file, getPos, putPos, eof, fail⟩ := s
  dsimp only at h1 h2 h3 h4 h5 h7 h8
  subst h1 h2 h3 h4
  cases c with
  | write d => exact hr.elim
  | seekIn p way => exact hr.elim
  | seekOut p way => exact hr.elim
  | tellOut => exact hr.elim
  | read n =>
    have hl : ((data.drop getPos).take n).length = min n (data.length - getPos) := by
      rw [List.length_take, List.length_drop]
    cases ended with
    | true =>
      have hend : getPos = data.length := h8 rfl
      have e : (IStream.mk data file getPos putPos eof fail).read n = ([], IStream.mk data file getPos putPos eof true) := by
        rw [IStream.read, IStream.rawRead, if_neg (by rw [h7]; simp)]
      change PipeAnswer.bytes ((IStream.mk data file getPos putPos eof fail).read n).1 = _ ∧
        InputShows file putPos ((IStream.mk data file getPos putPos eof fail).read n).2 _
      rw [e]
      refine ⟨?_, rfl, rfl, ?_, rfl, ?_, ?_, fun _ => ?_⟩
      · simp [FileView.expected, hend]
      · change getPos = min (getPos + n) data.length; omega
      · change min (getPos + n) data.length ≤ data.length; omega
      · simp [IStream.good, FileView.after]
      · change min (getPos + n) data.length = data.length; omega
    | false =>
      have hr : (IStream.mk data file getPos putPos eof fail).read n =
          if ((data.drop getPos).take n).length = n then
            ((data.drop getPos).take n, IStream.mk data file (getPos + n) putPos eof fail)
          else ((data.drop getPos).take n,
            IStream.mk data file (getPos + ((data.drop getPos).take n).length) putPos true true) := by
        rw [IStream.read, IStream.rawRead, if_pos (id h7 : _ = true)]
      change PipeAnswer.bytes ((IStream.mk data file getPos putPos eof fail).read n).1 = _ ∧
        InputShows file putPos ((IStream.mk data file getPos putPos eof fail).read n).2 _
      rw [hr]
      by_cases hfull : ((data.drop getPos).take n).length = n
      · rw [if_pos hfull]
        refine ⟨rfl, rfl, rfl, ?_, rfl, ?_, ?_, ?_⟩
        · change getPos + n = min (getPos + n) data.length; omega
        · change min (getPos + n) data.length ≤ data.length; omega
        · have : ¬ data.length < getPos + n := by omega
          simpa [FileView.after, this, IStream.good] using h7
        · have : ¬ data.length < getPos + n := by omega
          simp [FileView.after, this]
      · rw [if_neg hfull]
        refine ⟨rfl, rfl, rfl, ?_, rfl, ?_, ?_, fun _ => ?_⟩
        · change getPos + ((data.drop getPos).take n).length = min (getPos + n) data.length; omega
        · change min (getPos + n) data.length ≤ data.length; omega
        · have : data.length < getPos + n := by omega
          simp [FileView.after, this, IStream.good]
        · change min (getPos + n) data.length = data.length; omega
  | peek =>
    cases ended with
    | true =>
      have hend : getPos = data.length := h8 rfl
      have e : (IStream.mk data file getPos putPos eof fail).peek = (none, IStream.mk data file getPos putPos eof true) := by
        rw [IStream.peek, if_neg (by rw [h7]; simp)]
      change PipeAnswer.byte (IStream.mk data file getPos putPos eof fail).peek.1 = _ ∧
        InputShows file putPos (IStream.mk data file getPos putPos eof fail).peek.2 _
      rw [e]
      refine ⟨?_, rfl, rfl, rfl, rfl, h5, ?_, fun _ => hend⟩
      · simp [FileView.expected, hend]
      · simp [IStream.good, FileView.after]
    | false =>
      change PipeAnswer.byte (IStream.mk data file getPos putPos eof fail).peek.1 = _ ∧
        InputShows file putPos (IStream.mk data file getPos putPos eof fail).peek.2 _
      by_cases hend : getPos = data.length
      · have hn : data[getPos]? = none := List.getElem?_eq_none (by omega)
        have e : (IStream.mk data file getPos putPos eof fail).peek =
            (none, IStream.mk data file getPos putPos true fail) := by
          rw [IStream.peek, if_pos (id h7 : _ = true)]; dsimp only; rw [hn]
        rw [e]
        refine ⟨?_, rfl, rfl, rfl, rfl, h5, ?_, fun _ => hend⟩
        · change _ = PipeAnswer.byte data[getPos]?; rw [hn]
        · simp [IStream.good, FileView.after, hend]
      · have hs : data[getPos]? = some data[getPos] := List.getElem?_eq_getElem (by omega)
        have e : (IStream.mk data file getPos putPos eof fail).peek =
            (some data[getPos], IStream.mk data file getPos putPos eof fail) := by
          rw [IStream.peek, if_pos (id h7 : _ = true)]; dsimp only; rw [hs]
        rw [e]
        refine ⟨?_, rfl, rfl, rfl, rfl, h5, ?_, ?_⟩
        · change _ = PipeAnswer.byte data[getPos]?; rw [hs]
        · simpa [FileView.after, hend] using h7
        · simp [FileView.after, hend]
  | get =>
    cases ended with
    | true =>
      have hend : getPos = data.length := h8 rfl
      have e : (IStream.mk data file getPos putPos eof fail).get = (none, IStream.mk data file getPos putPos eof true) := by
        rw [IStream.get, if_neg (by rw [h7]; simp)]
      change PipeAnswer.byte (IStream.mk data file getPos putPos eof fail).get.1 = _ ∧
        InputShows file putPos (IStream.mk data file getPos putPos eof fail).get.2 _
      rw [e]
      refine ⟨?_, rfl, rfl, ?_, rfl, ?_, ?_, fun _ => ?_⟩
      · simp [FileView.expected, hend]
      · change getPos = min (getPos + 1) data.length; omega
      · change min (getPos + 1) data.length ≤ data.length; omega
      · simp [IStream.good, FileView.after]
      · change min (getPos + 1) data.length = data.length; omega
    | false =>
      change PipeAnswer.byte (IStream.mk data file getPos putPos eof fail).get.1 = _ ∧
        InputShows file putPos (IStream.mk data file getPos putPos eof fail).get.2 _
      by_cases hend : getPos = data.length
      · have hn : data[getPos]? = none := List.getElem?_eq_none (by omega)
        have e : (IStream.mk data file getPos putPos eof fail).get =
            (none, IStream.mk data file getPos putPos true true) := by
          rw [IStream.get, if_pos (id h7 : _ = true)]; dsimp only; rw [hn]
        rw [e]
        refine ⟨?_, rfl, rfl, ?_, rfl, ?_, ?_, fun _ => ?_⟩
        · change _ = PipeAnswer.byte data[getPos]?; rw [hn]
        · change getPos = min (getPos + 1) data.length; omega
        · change min (getPos + 1) data.length ≤ data.length; omega
        · simp [IStream.good, FileView.after, hend]
        · change min (getPos + 1) data.length = data.length; omega
      · have hs : data[getPos]? = some data[getPos] := List.getElem?_eq_getElem (by omega)
        have e : (IStream.mk data file getPos putPos eof fail).get =
            (some data[getPos], IStream.mk data file (getPos + 1) putPos eof fail) := by
          rw [IStream.get, if_pos (id h7 : _ = true)]; dsimp only; rw [hs]
        rw [e]
        refine ⟨?_, rfl, rfl, ?_, rfl, ?_, ?_, ?_⟩
        · change _ = PipeAnswer.byte data[getPos]?; rw [hs]
        · change getPos + 1 = min (getPos + 1) data.length; omega
        · change min (getPos + 1) data.length ≤ data.length; omega
        · simpa [FileView.after, hend, IStream.good] using h7
        · simp [FileView.after, hend]
  | whole =>
    cases ended with
    | true =>
      have hend : getPos = data.length := h8 rfl
      have e : (IStream.mk data file getPos putPos eof fail).pipeCall .whole =
          (.bytes [], IStream.mk data file getPos putPos eof true) := by
        have hr : (IStream.mk data file getPos putPos eof fail).rawRead 4096 =
            ([], IStream.mk data file getPos putPos eof true) := by
          rw [IStream.rawRead, if_neg (by rw [h7]; simp)]
        simp only [IStream.pipeCall, IStream.toBuffer, IStream.toBufferLoop, hr]
      rw [e]
      refine ⟨?_, rfl, rfl, hend, rfl, Nat.le_refl _, ?_, fun _ => rfl⟩
      · simp [FileView.expected, hend]
      · simp [IStream.good, FileView.after]
    | false =>
      obtain ⟨s', hs'⟩ := toBufferLoop_spec 4096 (by omega) (data.length + 2)
        (IStream.mk data file getPos putPos eof fail) [] h7 (by show data.length - getPos + 1 < data.length + 2; omega)
      obtain ⟨e1, e2, e3, e4, e5, -⟩ := toBufferLoop_end 4096 (by omega) _ _ _ _ _ h5 hs'
      have e : (IStream.mk data file getPos putPos eof fail).pipeCall .whole = (.bytes (data.drop getPos), s') := by
        simp only [IStream.pipeCall, IStream.toBuffer, hs', List.nil_append]
      rw [e]
      exact ⟨rfl, e2, e3, e5 h7, e4, Nat.le_refl _, e1, fun _ => rfl⟩
  | tellIn =>
    have c1 : ended = false := hc
    subst c1
    obtain ⟨f1, f2⟩ := (good_iff _).1 h7
    have e : (IStream.mk data file getPos putPos eof fail).position =
        ((getPos : Int), IStream.mk data file getPos putPos eof fail) := by
      rw [IStream.position, if_neg (by rw [f1]; simp), IStream.tellg, if_pos (id h7 : _ = true)]
    change PipeAnswer.place (IStream.mk data file getPos putPos eof fail).position.1 = _ ∧
      InputShows file putPos (IStream.mk data file getPos putPos eof fail).position.2 _
    rw [e]
    exact ⟨rfl, rfl, rfl, rfl, rfl, h5, h7, h8⟩

/-- The file shows the view; it stands at one of the two places, or at both. -/
structure FileShows (s : IStream) (v : FileView) (m : Standing) : Prop where
  data : s.data = v.content
  joint : s.putPos = s.getPos
  reading : m.reading = true → s.getPos = v.readAt
  writing : m.writing = true → s.putPos = v.writeAt
  inGet : v.readAt ≤ v.content.length
  inPut : v.writeAt ≤ v.content.length
  flags : s.good = !v.ended
  atEnd : v.ended = true → v.readAt = v.content.length

theorem fileCall_shows {s : IStream} {v : FileView} {m : Standing} (h : FileShows s v m) (c : PipeCall) (hc : v.Allowed c)
    (hm : m.Fit c) : (s.fileCall c).1 = v.expected c ∧ FileShows (s.fileCall c).2 (v.after c) (m.next c) := by
  obtain ⟨h1, h2, h3, h4, h5, h6, h7, h8⟩ := h
  have hin : ∀ c, IsInput c → m.reading = true → v.Allowed c → (s.pipeCall c).1 = v.expected c ∧
      InputShows s.file s.putPos (s.pipeCall c).2 (v.after c) := fun c hr hg ha =>
    input_step ⟨h1, rfl, h3 hg, rfl, h5, h7, h8⟩ c hr ha
  cases c with
  | write d =>
    have he : v.ended = false := hc
    have hw : s.putPos = v.writeAt := h4 hm
    have hg : s.good = true := by rw [h7, he]; rfl
    have e : s.fileWrite d = { s with data := overwritten v.content v.writeAt d, putPos := v.writeAt + d.length } := by
      rw [IStream.fileWrite, if_pos hg, ← overwritten_eq _ _ _ h6, h1, hw, Nat.sub_eq_zero_of_le h6]
      simp
    refine ⟨rfl, ?_⟩
    simp only [IStream.fileCall, e]
    refine ⟨rfl, rfl, fun h => by simp [Standing.next] at h, fun _ => rfl, ?_, ?_, h7, fun h => ?_⟩
    · change v.readAt ≤ (overwritten v.content v.writeAt d).length
      rw [overwritten_length]; omega
    · change v.writeAt + d.length ≤ (overwritten v.content v.writeAt d).length
      rw [overwritten_length]; omega
    · rw [show (v.after (.write d)).ended = v.ended from rfl, he] at h; cases h
  | read n =>
    obtain ⟨e1, e2, -, e3, e4, e5, e6, e7⟩ := hin (.read n) trivial hm hc
    exact ⟨e1, e2, rfl, fun _ => e3, fun h => by simp [Standing.next] at h, e5, h6, e6, e7⟩
  | peek =>
    obtain ⟨e1, e2, -, e3, e4, e5, e6, e7⟩ := hin .peek trivial hm hc
    have e3 : s.peek.2.getPos = v.readAt := e3
    refine ⟨e1, e2, rfl, fun _ => e3, fun h => ?_, e5, h6, e6, e7⟩
    change s.peek.2.getPos = v.writeAt
    rw [e3, ← h3 hm, ← h2]
    exact h4 h
  | get =>
    obtain ⟨e1, e2, -, e3, e4, e5, e6, e7⟩ := hin .get trivial hm hc
    exact ⟨e1, e2, rfl, fun _ => e3, fun h => by simp [Standing.next] at h, e5, h6, e6, e7⟩
  | whole =>
    obtain ⟨e1, e2, -, e3, e4, e5, e6, e7⟩ := hin .whole trivial hm hc
    exact ⟨e1, e2, rfl, fun _ => e3, fun h => by simp [Standing.next] at h, e5, h6, e6, e7⟩
  | tellIn =>
    obtain ⟨e1, e2, -, e3, e4, e5, e6, e7⟩ := hin .tellIn trivial hm hc
    have e3 : s.position.2.getPos = v.readAt := e3
    refine ⟨e1, e2, rfl, fun _ => e3, fun h => ?_, e5, h6, e6, e7⟩
    change s.position.2.getPos = v.writeAt
    rw [e3, ← h3 hm, ← h2]
    exact h4 h
  | seekIn p way =>
    obtain ⟨c1, c2, c3⟩ := hc
    have ht : s.target p way = seekPlace v.readAt v.content.length p way := by
      cases way with
      | beginning => rfl
      | current => rw [IStream.target, h3 (hm rfl)]; rfl
      | end_ => rw [IStream.target, h1]; rfl
    obtain ⟨g1, g2⟩ := setPosition_spec s p way c1 (by
      rw [ht, IStream.seekable, h1]
      simp only [Bool.and_eq_true, Bool.or_eq_true, decide_eq_true_eq]
      exact ⟨c2, .inr c3⟩)
    rw [ht] at g2
    obtain ⟨k1, -⟩ := apply_same s (.setPosition p way)
    have k1 : (s.setPosition p way).data = s.data := k1
    refine ⟨rfl, k1.trans h1, rfl, fun _ => ?_, fun h => by simp [Standing.next] at h, ?_, h6, g1, fun h => by cases h⟩
    · change (s.setPosition p way).getPos = (seekPlace v.readAt v.content.length p way).toNat
      omega
    · change (seekPlace v.readAt v.content.length p way).toNat ≤ v.content.length
      omega
  | seekOut p way =>
    obtain ⟨c1, c2, c3⟩ := hc
    have hg : s.good = true := by rw [h7, c1]; rfl
    obtain ⟨-, f2⟩ := (good_iff _).1 hg
    have e : s.fileSeekOut p way = { s with putPos := (seekPlace v.writeAt v.content.length p way).toNat } := by
      cases way with
      | beginning =>
        have c2 : 0 ≤ p := c2
        simp [IStream.fileSeekOut, f2, c2, seekPlace]
      | current =>
        have c2 : 0 ≤ (v.writeAt : Int) + p := c2
        simp [IStream.fileSeekOut, f2, c2, seekPlace, h4 (hm rfl)]
      | end_ =>
        have c2 : 0 ≤ (v.content.length : Int) + p := c2
        simp [IStream.fileSeekOut, f2, c2, seekPlace, h1]
    refine ⟨rfl, ?_⟩
    simp only [IStream.fileCall, e]
    refine ⟨h1, rfl, fun h => by simp [Standing.next] at h, fun _ => rfl, h5, ?_, h7, h8⟩
    change (seekPlace v.writeAt v.content.length p way).toNat ≤ v.content.length
    omega
  | tellOut =>
    have he : v.ended = false := hc
    have hg : s.good = true := by rw [h7, he]; rfl
    obtain ⟨-, f2⟩ := (good_iff _).1 hg
    refine ⟨?_, h1, h2, h3, h4, h5, h6, h7, h8⟩
    simp [IStream.fileCall, IStream.pipeCall, IStream.outputPosition, f2, h4 hm, FileView.expected]

end FileStreams

/-- **C125** (for programs that position the file whenever they change between reading and writing; otherwise the claim is false,
see the counterexamples). For every history of writes, reads and positionings of a file that was opened for reading and
writing, every call returns what a content with a place for reading and a place for writing gives, and in the end the file has
the content that results. -/
theorem C125_history_partial (content : Bytes) (calls : List PipeCall)
    (h : FileView.AllAllowed ⟨content, 0, 0, false⟩ calls) (hfit : Standing.AllFit ⟨true, true⟩ calls) :
    ((IStream.ofBytes true content).fileRun calls).1 = FileView.answers ⟨content, 0, 0, false⟩ calls ∧
      ((IStream.ofBytes true content).fileRun calls).2.data =
        (FileView.finally ⟨content, 0, 0, false⟩ calls).content := by
  have key : ∀ (calls : List PipeCall) (s : IStream) (v : FileView) (m : Standing), FileStreams.FileShows s v m →
      v.AllAllowed calls → m.AllFit calls →
      (s.fileRun calls).1 = v.answers calls ∧ (s.fileRun calls).2.data = (v.finally calls).content := by
    intro calls
    induction calls with
    | nil => intro s v m hs _ _; exact ⟨rfl, hs.data⟩
    | cons c cs ih =>
      intro s v m hs ha hf
      obtain ⟨e1, e2⟩ := FileStreams.fileCall_shows hs c ha.1 hf.1
      obtain ⟨r1, r2⟩ := ih _ _ _ e2 ha.2 hf.2
      refine ⟨?_, r2⟩
      change (s.fileCall c).1 :: _ = v.expected c :: _
      rw [e1, r1]
  exact key calls _ _ _ ⟨rfl, rfl, fun _ => rfl, fun _ => rfl, Nat.zero_le _, Nat.zero_le _, rfl, fun h => by cases h⟩ h hfit

-- the calls of a signer (document_signer.cpp:41-115): the size, the byte ranges, the bytes to sign, the signature
example : FileView.AllAllowed ⟨b! "0123456789", 0, 0, false⟩
    [.seekOut 0 .end_, .tellOut, .seekOut 2 .beginning, .write (b! "ab"), .seekIn 0 .beginning, .read 5, .seekIn 7 .beginning,
     .read 3, .seekOut 5 .beginning, .write (b! "XY")] := by
  simp [FileView.AllAllowed, FileView.Allowed, FileView.after, seekPlace, overwritten]
example : Standing.AllFit ⟨true, true⟩
    [.seekOut 0 .end_, .tellOut, .seekOut 2 .beginning, .write (b! "ab"), .seekIn 0 .beginning, .read 5, .seekIn 7 .beginning,
     .read 3, .seekOut 5 .beginning, .write (b! "XY")] := by
  simp [Standing.AllFit, Standing.Fit, Standing.next]
example : (((IStream.ofBytes true (b! "0123456789")).fileRun
    [.seekOut 0 .end_, .tellOut, .seekOut 2 .beginning, .write (b! "ab"), .seekIn 0 .beginning, .read 5, .seekIn 7 .beginning,
     .read 3, .seekOut 5 .beginning, .write (b! "XY")]).1,
    ((IStream.ofBytes true (b! "0123456789")).fileRun
    [.seekOut 0 .end_, .tellOut, .seekOut 2 .beginning, .write (b! "ab"), .seekIn 0 .beginning, .read 5, .seekIn 7 .beginning,
     .read 3, .seekOut 5 .beginning, .write (b! "XY")]).2.data) =
    ([.done, .place 10, .done, .done, .done, .bytes (b! "01ab4"), .done, .bytes (b! "789"), .done, .done], b! "01ab4XY789") := by
  decide +kernel

/-- **C125**: a program that positions whenever it changes between reading and writing, and begins with positioning for writing,
sees no difference between a file and a stream in memory with the same content. -/
theorem C125_same (content : Bytes) (p : Int) (way : SeekDir) (calls : List PipeCall) (hway : way ≠ .current)
    (h : FileView.AllAllowed ⟨content, 0, content.length, false⟩ (.seekOut p way :: calls))
    (hfit : Standing.AllFit ⟨false, true⟩ calls) :
    ((IStream.ofBytes true content).fileRun (.seekOut p way :: calls)).1 =
        ((IStream.ofBytes false content).pipeRun (.seekOut p way :: calls)).1 ∧
      ((IStream.ofBytes true content).fileRun (.seekOut p way :: calls)).2.data =
        ((IStream.ofBytes false content).pipeRun (.seekOut p way :: calls)).2.data := by
  have hp : seekPlace 0 content.length p way = seekPlace content.length content.length p way := by
    cases way with
    | current => exact absurd rfl hway
    | beginning => rfl
    | end_ => rfl
  have hv : FileView.after ⟨content, 0, 0, false⟩ (.seekOut p way) =
      FileView.after ⟨content, 0, content.length, false⟩ (.seekOut p way) := by
    simp only [FileView.after, hp]
  have hall : FileView.AllAllowed ⟨content, 0, 0, false⟩ (.seekOut p way :: calls) := by
    refine ⟨?_, ?_⟩
    · have := h.1
      simp only [FileView.Allowed] at this ⊢
      rw [hp]
      exact this
    · rw [hv]; exact h.2
  obtain ⟨a1, a2⟩ := C125_history_partial content _ hall ⟨fun h => absurd h hway, hfit⟩
  obtain ⟨b1, b2⟩ := C74_history_partial content _ h
  rw [a1, a2, b1, b2]
  simp only [FileView.answers, FileView.finally, FileView.expected, hv]
  exact ⟨trivial, trivial⟩

example : FileView.AllAllowed ⟨b! "0123456789", 0, 10, false⟩
    [.seekOut 0 .end_, .write (b! "ab"), .seekIn (-4) .end_, .read 9, .seekIn 1 .beginning, .get, .seekOut 5 .beginning,
     .write (b! "XY")] := by
  simp [FileView.AllAllowed, FileView.Allowed, FileView.after, seekPlace, overwritten]
example : Standing.AllFit ⟨false, true⟩
    [.write (b! "ab"), .seekIn (-4) .end_, .read 9, .seekIn 1 .beginning, .get, .seekOut 5 .beginning, .write (b! "XY")] := by
  simp [Standing.AllFit, Standing.Fit, Standing.next]

/-- The claim **C125** is false: on every file, reading moves the place for writing, and what is written afterwards does not
replace the bytes at the place where the program has left its writing but those behind what was read. -/
theorem C125_read_counterexample (content more d : Bytes) :
    ((IStream.ofBytes true (content ++ more)).fileRun [.tellOut, .read content.length, .tellOut, .write d]).1 =
        [.place 0, .bytes content, .place content.length, .done] ∧
      ((IStream.ofBytes true (content ++ more)).fileRun [.tellOut, .read content.length, .tellOut, .write d]).2.data =
        content ++ d ++ more.drop d.length := by
  simp [IStream.fileRun, IStream.fileCall, IStream.pipeCall, IStream.read, IStream.rawRead, IStream.outputPosition,
    IStream.fileWrite, IStream.ofBytes, IStream.good]

/-- The claim **C125** is false: on every file, a program that writes and then reads from where it left its reading does not get
the bytes there but those behind what it has written. -/
theorem C125_write_counterexample (content d : Bytes) (n : Nat) :
    ((IStream.ofBytes true content).fileRun [.tellIn, .write d, .read n]).1 =
      [.place 0, .done, .bytes ((content.drop d.length).take n)] := by
  have hw : (IStream.ofBytes true content).fileWrite d =
      { IStream.ofBytes true content with data := d ++ content.drop d.length, putPos := d.length } := by
    simp [IStream.fileWrite, IStream.ofBytes, IStream.good]
  have hp : (IStream.ofBytes true content).position = (0, IStream.ofBytes true content) := rfl
  have hj : ({ IStream.ofBytes true content with putPos := (IStream.ofBytes true content).getPos } : IStream) =
      IStream.ofBytes true content := rfl
  simp only [IStream.fileRun, IStream.fileCall, IStream.pipeCall, hp, hj, hw]
  rw [read_good (by rfl)]
  simp

/-- The claim **C125** is false: from the moment a file that is read and written has met its end, all that is written to it is
dropped, whatever is written, read and asked and wherever it is positioned for writing, until it is positioned for reading. -/
theorem C125_lost_counterexample (s : IStream) (hend : s.eof = true ∨ s.fail = true) (calls : List PipeCall)
    (hno : ∀ p way, PipeCall.seekIn p way ∉ calls) : (s.fileRun calls).2.data = s.data := by
  have hgood : s.good = false := by
    rcases hend with h | h <;> simp [IStream.good, h]
  clear hend
  have hfail : ∀ s : IStream, ({ s with fail := true } : IStream).good = false := by intro s; simp [IStream.good]
  have step : ∀ (s : IStream) (c : PipeCall), s.good = false → (∀ p way, c ≠ .seekIn p way) →
      (s.fileCall c).2.good = false ∧ (s.fileCall c).2.data = s.data := by
    intro s c hg hc
    have hg' : ¬ s.good = true := by rw [hg]; simp
    obtain ⟨i1, i2⟩ := StreamHistory.ended_step s c hg hc
    cases c with
    | write d =>
      simp only [IStream.fileCall, IStream.fileWrite, if_neg hg']
      exact ⟨hfail s, trivial⟩
    | seekOut p way =>
      have hq : ∀ q : Int, (if s.fail then s else if 0 ≤ q then { s with putPos := q.toNat }
          else { s with fail := true } : IStream).good = false ∧
          (if s.fail then s else if 0 ≤ q then { s with putPos := q.toNat } else { s with fail := true } : IStream).data =
            s.data := by
        intro q
        split
        · exact ⟨hg, rfl⟩
        · split
          · exact ⟨hg, rfl⟩
          · exact ⟨hfail s, rfl⟩
      exact hq _
    | seekIn p way => exact absurd rfl (hc p way)
    | tellOut => exact ⟨i1, i2⟩
    | read n => exact ⟨i1, i2⟩
    | peek => exact ⟨i1, i2⟩
    | get => exact ⟨i1, i2⟩
    | whole => exact ⟨i1, i2⟩
    | tellIn => exact ⟨i1, i2⟩
  induction calls generalizing s with
  | nil => rfl
  | cons c cs ih =>
    obtain ⟨e1, e2⟩ := step s c hgood (fun p way e => hno p way (by simp [e]))
    exact (ih (s.fileCall c).2 (fun p way hm => hno p way (List.mem_cons_of_mem _ hm)) e1).trans e2

example : ((IStream.ofBytes true (b! "abc")).fileRun [.whole]).2.eof = true := by decide +kernel

end VPdf
