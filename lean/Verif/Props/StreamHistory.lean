/-
  C74: a stream in memory that is read and written answers every history of calls as a content with a place for reading and a
  place for writing does.
-/
import Verif.Lemmas.Stream
import Verif.Spec.StreamHistory

namespace VPdf
open Spec

namespace StreamHistory

/-- The stream shows the view. -/
structure PipeShows (s : IStream) (v : FileView) : Prop where
  data : s.data = v.content
  file : s.file = false
  get : s.getPos = v.readAt
  put : s.putPos = v.writeAt
  inGet : v.readAt ≤ v.content.length
  inPut : v.writeAt ≤ v.content.length
  flags : s.good = !v.ended
  atEnd : v.ended = true → v.readAt = v.content.length

theorem overwritten_eq (content : Bytes) (place : Nat) (d : Bytes) (h : place ≤ content.length) :
    content.take place ++ d ++ content.drop (place + d.length) = overwritten content place d := by
  apply List.ext_getElem?
  intro i
  by_cases hi : i < max content.length (place + d.length)
  · rw [overwritten, List.getElem?_map, List.getElem?_range hi, Option.map_some, List.append_assoc, List.getElem?_append,
      List.length_take, Nat.min_eq_left h]
    by_cases h1 : i < place
    · rw [if_pos h1, if_neg (by omega), List.getElem?_take_of_lt h1, List.getD_eq_getElem?_getD,
        List.getElem?_eq_getElem (by omega)]
      rfl
    · rw [if_neg h1, List.getElem?_append]
      by_cases h2 : i < place + d.length
      · rw [if_pos (by omega), if_pos (by omega), List.getD_eq_getElem?_getD, List.getElem?_eq_getElem (by omega)]
        rfl
      · rw [if_neg (by omega), if_neg (by omega), List.getElem?_drop, List.getD_eq_getElem?_getD]
        have e : place + d.length + (i - place - d.length) = i := by omega
        rw [e, List.getElem?_eq_getElem (by omega)]
        rfl
  · rw [List.getElem?_eq_none, List.getElem?_eq_none]
    · rw [overwritten, List.length_map, List.length_range]; omega
    · simp only [List.length_append, List.length_take, List.length_drop]; omega

theorem overwritten_length (content : Bytes) (place : Nat) (d : Bytes) :
    (overwritten content place d).length = max content.length (place + d.length) := by
  rw [overwritten, List.length_map, List.length_range]

theorem toBufferLoop_end (size : Nat) (hsize : 0 < size) : ∀ (f : Nat) (s : IStream) (acc b : Bytes) (s' : IStream),
    s.getPos ≤ s.data.length → s.toBufferLoop size f acc = .ok (b, s') →
    s'.good = false ∧ s'.data = s.data ∧ s'.file = s.file ∧ s'.putPos = s.putPos ∧
      (s.good = true → s'.getPos = s.data.length) ∧ (s.good = false → s'.getPos = s.getPos ∧ b = acc) := by
  intro f
  induction f with
  | zero => intro s acc b s' _ h; simp [IStream.toBufferLoop] at h
  | succ f ih =>
    intro s acc b s' hin h
    rw [IStream.toBufferLoop] at h
    by_cases hg : s.good = true
    · have hr : s.rawRead size = if ((s.data.drop s.getPos).take size).length = size then
          ((s.data.drop s.getPos).take size, { s with getPos := s.getPos + size })
        else ((s.data.drop s.getPos).take size,
          { s with getPos := s.getPos + ((s.data.drop s.getPos).take size).length, eof := true, fail := true }) := by
        rw [IStream.rawRead, if_pos hg]
      have hl : ((s.data.drop s.getPos).take size).length = min size (s.data.length - s.getPos) := by
        rw [List.length_take, List.length_drop]
      by_cases hfull : ((s.data.drop s.getPos).take size).length = size
      · rw [hr, if_pos hfull] at h
        split at h
        · next _ he =>
          have := congrArg List.length (congrArg Prod.fst he)
          simp only [List.length_nil] at this
          omega
        · next got s1 _ he =>
          cases he
          obtain ⟨e1, e2, e3, e4, e5, e6⟩ := ih _ _ _ _ (by show s.getPos + size ≤ s.data.length; omega) h
          exact ⟨e1, e2, e3, e4, fun _ => e5 hg, fun hb => by rw [hg] at hb; cases hb⟩
      · rw [hr, if_neg hfull] at h
        have hend : s.getPos + ((s.data.drop s.getPos).take size).length = s.data.length := by omega
        split at h
        · next _ he =>
          cases h
          have := congrArg Prod.snd he
          subst this
          exact ⟨rfl, rfl, rfl, rfl, fun _ => hend, fun hb => by rw [hg] at hb; cases hb⟩
        · next got s1 _ he =>
          cases he
          obtain ⟨e1, e2, e3, e4, e5, e6⟩ := ih _ _ _ _ (by show s.getPos + _ ≤ s.data.length; omega) h
          exact ⟨e1, e2, e3, e4, fun _ => (e6 rfl).1.trans hend, fun hb => by rw [hg] at hb; cases hb⟩
    · have hr : s.rawRead size = ([], { s with fail := true }) := by rw [IStream.rawRead, if_neg hg]
      rw [hr] at h
      cases h
      exact ⟨by simp [IStream.good], rfl, rfl, rfl, fun h => absurd h hg, fun _ => ⟨rfl, rfl⟩⟩

theorem setPosition_put (s : IStream) (p : Int) (way : SeekDir) : (s.setPosition p way).putPos = s.putPos := by
  have hpos : ∀ s : IStream, s.position.2.putPos = s.putPos := by
    intro s
    simp only [IStream.position, IStream.tellg]
    split
    · rfl
    · split <;> rfl
  have hseek : ∀ (s : IStream) (q : Int), (s.seekg q).putPos = s.putPos := by
    intro s q
    simp only [IStream.seekg]
    split
    · rfl
    · split <;> rfl
  rw [IStream.setPosition]
  dsimp only
  split
  · exact hpos s
  · generalize hs1 : (if (s.position.2.eof || s.position.2.fail) = true then
        ({ s.position.2 with eof := false, fail := false } : IStream) else s.position.2) = s1
    have h1 : s1.putPos = s.putPos := by
      rw [← hs1]
      split
      · exact hpos s
      · exact hpos s
    split
    · exact (hseek s1 _).trans h1
    · exact (hpos _).trans ((hseek s1 _).trans h1)

/-- One call keeps the stream and the view together, and is answered as expected. -/
theorem step_shows {s : IStream} {v : FileView} (h : PipeShows s v) (c : PipeCall) (hc : v.Allowed c) :
    (s.pipeCall c).1 = v.expected c ∧ PipeShows (s.pipeCall c).2 (v.after c) := by
  obtain ⟨h1, h2, h3, h4, h5, h6, h7, h8⟩ := h
  obtain ⟨content, readAt, writeAt, ended⟩ := v
  obtain ⟨data, file, getPos, putPos, eof, fail⟩ := s
  dsimp only at h1 h2 h3 h4 h5 h6 h7 h8
  subst h1 h2 h3 h4
  cases c with
  | write d =>
    have he : ended = false := hc
    subst he
    refine ⟨rfl, ?_⟩
    have e : (IStream.mk data false getPos putPos eof fail).write d =
        IStream.mk (overwritten data putPos d) false getPos (putPos + d.length) eof fail := by
      rw [IStream.write, if_pos (id h7 : _ = true), ← overwritten_eq data putPos d h6]
    change PipeShows ((IStream.mk data false getPos putPos eof fail).write d) _
    rw [e]
    refine ⟨rfl, rfl, rfl, rfl, ?_, ?_, h7, fun h => by cases h⟩
    · change getPos ≤ (overwritten data putPos d).length
      rw [overwritten_length]; omega
    · change putPos + d.length ≤ (overwritten data putPos d).length
      rw [overwritten_length]; omega
  | read n =>
    have hl : ((data.drop getPos).take n).length = min n (data.length - getPos) := by
      rw [List.length_take, List.length_drop]
    cases ended with
    | true =>
      have hend : getPos = data.length := h8 rfl
      have e : (IStream.mk data false getPos putPos eof fail).read n = ([], IStream.mk data false getPos putPos eof true) := by
        rw [IStream.read, IStream.rawRead, if_neg (by rw [h7]; simp)]
      change PipeAnswer.bytes ((IStream.mk data false getPos putPos eof fail).read n).1 = _ ∧
        PipeShows ((IStream.mk data false getPos putPos eof fail).read n).2 _
      rw [e]
      refine ⟨?_, rfl, rfl, ?_, rfl, ?_, h6, ?_, fun _ => ?_⟩
      · simp [FileView.expected, hend]
      · change getPos = min (getPos + n) data.length; omega
      · change min (getPos + n) data.length ≤ data.length; omega
      · simp [IStream.good, FileView.after]
      · change min (getPos + n) data.length = data.length; omega
    | false =>
      have hr : (IStream.mk data false getPos putPos eof fail).read n =
          if ((data.drop getPos).take n).length = n then
            ((data.drop getPos).take n, IStream.mk data false (getPos + n) putPos eof fail)
          else ((data.drop getPos).take n,
            IStream.mk data false (getPos + ((data.drop getPos).take n).length) putPos true true) := by
        rw [IStream.read, IStream.rawRead, if_pos (id h7 : _ = true)]
      change PipeAnswer.bytes ((IStream.mk data false getPos putPos eof fail).read n).1 = _ ∧
        PipeShows ((IStream.mk data false getPos putPos eof fail).read n).2 _
      rw [hr]
      by_cases hfull : ((data.drop getPos).take n).length = n
      · rw [if_pos hfull]
        refine ⟨rfl, rfl, rfl, ?_, rfl, ?_, h6, ?_, ?_⟩
        · change getPos + n = min (getPos + n) data.length; omega
        · change min (getPos + n) data.length ≤ data.length; omega
        · have : ¬ data.length < getPos + n := by omega
          simpa [FileView.after, this, IStream.good] using h7
        · have : ¬ data.length < getPos + n := by omega
          simp [FileView.after, this]
      · rw [if_neg hfull]
        refine ⟨rfl, rfl, rfl, ?_, rfl, ?_, h6, ?_, fun _ => ?_⟩
        · change getPos + ((data.drop getPos).take n).length = min (getPos + n) data.length; omega
        · change min (getPos + n) data.length ≤ data.length; omega
        · have : data.length < getPos + n := by omega
          simp [FileView.after, this, IStream.good]
        · change min (getPos + n) data.length = data.length; omega
  | peek =>
    cases ended with
    | true =>
      have hend : getPos = data.length := h8 rfl
      have e : (IStream.mk data false getPos putPos eof fail).peek = (none, IStream.mk data false getPos putPos eof true) := by
        rw [IStream.peek, if_neg (by rw [h7]; simp)]
      change PipeAnswer.byte (IStream.mk data false getPos putPos eof fail).peek.1 = _ ∧
        PipeShows (IStream.mk data false getPos putPos eof fail).peek.2 _
      rw [e]
      refine ⟨?_, rfl, rfl, rfl, rfl, h5, h6, ?_, fun _ => hend⟩
      · simp [FileView.expected, hend]
      · simp [IStream.good, FileView.after]
    | false =>
      change PipeAnswer.byte (IStream.mk data false getPos putPos eof fail).peek.1 = _ ∧
        PipeShows (IStream.mk data false getPos putPos eof fail).peek.2 _
      by_cases hend : getPos = data.length
      · have hn : data[getPos]? = none := List.getElem?_eq_none (by omega)
        have e : (IStream.mk data false getPos putPos eof fail).peek =
            (none, IStream.mk data false getPos putPos true fail) := by
          rw [IStream.peek, if_pos (id h7 : _ = true)]; dsimp only; rw [hn]
        rw [e]
        refine ⟨?_, rfl, rfl, rfl, rfl, h5, h6, ?_, fun _ => hend⟩
        · change _ = PipeAnswer.byte data[getPos]?; rw [hn]
        · simp [IStream.good, FileView.after, hend]
      · have hs : data[getPos]? = some data[getPos] := List.getElem?_eq_getElem (by omega)
        have e : (IStream.mk data false getPos putPos eof fail).peek =
            (some data[getPos], IStream.mk data false getPos putPos eof fail) := by
          rw [IStream.peek, if_pos (id h7 : _ = true)]; dsimp only; rw [hs]
        rw [e]
        refine ⟨?_, rfl, rfl, rfl, rfl, h5, h6, ?_, ?_⟩
        · change _ = PipeAnswer.byte data[getPos]?; rw [hs]
        · simpa [FileView.after, hend] using h7
        · simp [FileView.after, hend]
  | get =>
    cases ended with
    | true =>
      have hend : getPos = data.length := h8 rfl
      have e : (IStream.mk data false getPos putPos eof fail).get = (none, IStream.mk data false getPos putPos eof true) := by
        rw [IStream.get, if_neg (by rw [h7]; simp)]
      change PipeAnswer.byte (IStream.mk data false getPos putPos eof fail).get.1 = _ ∧
        PipeShows (IStream.mk data false getPos putPos eof fail).get.2 _
      rw [e]
      refine ⟨?_, rfl, rfl, ?_, rfl, ?_, h6, ?_, fun _ => ?_⟩
      · simp [FileView.expected, hend]
      · change getPos = min (getPos + 1) data.length; omega
      · change min (getPos + 1) data.length ≤ data.length; omega
      · simp [IStream.good, FileView.after]
      · change min (getPos + 1) data.length = data.length; omega
    | false =>
      change PipeAnswer.byte (IStream.mk data false getPos putPos eof fail).get.1 = _ ∧
        PipeShows (IStream.mk data false getPos putPos eof fail).get.2 _
      by_cases hend : getPos = data.length
      · have hn : data[getPos]? = none := List.getElem?_eq_none (by omega)
        have e : (IStream.mk data false getPos putPos eof fail).get =
            (none, IStream.mk data false getPos putPos true true) := by
          rw [IStream.get, if_pos (id h7 : _ = true)]; dsimp only; rw [hn]
        rw [e]
        refine ⟨?_, rfl, rfl, ?_, rfl, ?_, h6, ?_, fun _ => ?_⟩
        · change _ = PipeAnswer.byte data[getPos]?; rw [hn]
        · change getPos = min (getPos + 1) data.length; omega
        · change min (getPos + 1) data.length ≤ data.length; omega
        · simp [IStream.good, FileView.after, hend]
        · change min (getPos + 1) data.length = data.length; omega
      · have hs : data[getPos]? = some data[getPos] := List.getElem?_eq_getElem (by omega)
        have e : (IStream.mk data false getPos putPos eof fail).get =
            (some data[getPos], IStream.mk data false (getPos + 1) putPos eof fail) := by
          rw [IStream.get, if_pos (id h7 : _ = true)]; dsimp only; rw [hs]
        rw [e]
        refine ⟨?_, rfl, rfl, ?_, rfl, ?_, h6, ?_, ?_⟩
        · change _ = PipeAnswer.byte data[getPos]?; rw [hs]
        · change getPos + 1 = min (getPos + 1) data.length; omega
        · change min (getPos + 1) data.length ≤ data.length; omega
        · simpa [FileView.after, hend, IStream.good] using h7
        · simp [FileView.after, hend]
  | whole =>
    cases ended with
    | true =>
      have hend : getPos = data.length := h8 rfl
      have e : (IStream.mk data false getPos putPos eof fail).pipeCall .whole =
          (.bytes [], IStream.mk data false getPos putPos eof true) := by
        have hr : (IStream.mk data false getPos putPos eof fail).rawRead 4096 =
            ([], IStream.mk data false getPos putPos eof true) := by
          rw [IStream.rawRead, if_neg (by rw [h7]; simp)]
        simp only [IStream.pipeCall, IStream.toBuffer, IStream.toBufferLoop, hr]
      rw [e]
      refine ⟨?_, rfl, rfl, hend, rfl, Nat.le_refl _, h6, ?_, fun _ => rfl⟩
      · simp [FileView.expected, hend]
      · simp [IStream.good, FileView.after]
    | false =>
      obtain ⟨s', hs'⟩ := toBufferLoop_spec 4096 (by omega) (data.length + 2)
        (IStream.mk data false getPos putPos eof fail) [] h7 (by show data.length - getPos + 1 < data.length + 2; omega)
      obtain ⟨e1, e2, e3, e4, e5, -⟩ := toBufferLoop_end 4096 (by omega) _ _ _ _ _ h5 hs'
      have e : (IStream.mk data false getPos putPos eof fail).pipeCall .whole = (.bytes (data.drop getPos), s') := by
        simp only [IStream.pipeCall, IStream.toBuffer, hs', List.nil_append]
      rw [e]
      exact ⟨rfl, e2, e3, e5 h7, e4, Nat.le_refl _, h6, e1, fun _ => rfl⟩
  | seekIn p way =>
    obtain ⟨c1, c2, c3⟩ := hc
    have ht : (IStream.mk data false getPos putPos eof fail).target p way = seekPlace getPos data.length p way := by
      cases way <;> rfl
    obtain ⟨g1, g2⟩ := setPosition_spec (IStream.mk data false getPos putPos eof fail) p way c1 (by
      rw [ht, IStream.seekable]
      simp only [Bool.false_or, Bool.and_eq_true, decide_eq_true_eq]
      exact ⟨c2, c3⟩)
    rw [ht] at g2
    obtain ⟨k1, k2⟩ := apply_same (IStream.mk data false getPos putPos eof fail) (.setPosition p way)
    have k3 := setPosition_put (IStream.mk data false getPos putPos eof fail) p way
    refine ⟨rfl, k1, k2, ?_, k3, ?_, h6, g1, fun h => by cases h⟩
    · change ((IStream.mk data false getPos putPos eof fail).setPosition p way).getPos =
        (seekPlace getPos data.length p way).toNat
      omega
    · change (seekPlace getPos data.length p way).toNat ≤ data.length
      change seekPlace getPos data.length p way ≤ (data.length : Int) at c3
      omega
  | seekOut p way =>
    obtain ⟨c1, c2, c3⟩ := hc
    have c1 : ended = false := c1
    subst c1
    obtain ⟨f1, f2⟩ := (good_iff _).1 h7
    have f2 : fail = false := f2
    subst f2
    have e : (IStream.mk data false getPos putPos eof false).setOutputPositionWay p way =
        IStream.mk data false getPos (seekPlace putPos data.length p way).toNat eof false := by
      have c2 : 0 ≤ seekPlace putPos data.length p way := c2
      have c3 : seekPlace putPos data.length p way ≤ data.length := c3
      have ht : (IStream.mk data false getPos putPos eof false).setOutputPositionWay p way =
          (IStream.mk data false getPos putPos eof false).setOutputPosition (seekPlace putPos data.length p way) := by
        cases way <;> rfl
      rw [ht, IStream.setOutputPosition, if_neg (by simp), if_pos ⟨c2, c3⟩]
    change _ ∧ PipeShows ((IStream.mk data false getPos putPos eof false).setOutputPositionWay p way) _
    rw [e]
    refine ⟨rfl, rfl, rfl, rfl, rfl, h5, ?_, h7, fun h => by cases h⟩
    change (seekPlace putPos data.length p way).toNat ≤ data.length
    change seekPlace putPos data.length p way ≤ (data.length : Int) at c3
    omega
  | tellIn =>
    have c1 : ended = false := hc
    subst c1
    obtain ⟨f1, f2⟩ := (good_iff _).1 h7
    have e : (IStream.mk data false getPos putPos eof fail).position =
        ((getPos : Int), IStream.mk data false getPos putPos eof fail) := by
      rw [IStream.position, if_neg (by rw [f1]; simp), IStream.tellg, if_pos (id h7 : _ = true)]
    change PipeAnswer.place (IStream.mk data false getPos putPos eof fail).position.1 = _ ∧
      PipeShows (IStream.mk data false getPos putPos eof fail).position.2 _
    rw [e]
    exact ⟨rfl, rfl, rfl, rfl, rfl, h5, h6, h7, h8⟩
  | tellOut =>
    have c1 : ended = false := hc
    subst c1
    obtain ⟨f1, f2⟩ := (good_iff _).1 h7
    have f2 : fail = false := f2
    subst f2
    exact ⟨rfl, rfl, rfl, rfl, rfl, h5, h6, h7, h8⟩

end StreamHistory

/-- **C74** (for the calls described by `FileView.Allowed`: outside of them the claim is false). For every history of writes,
reads and positionings of a stream in memory, in any order, every call returns what a content with a place for reading and a
place for writing gives, and in the end the stream has the content that results. -/
theorem C74_history_partial (content : Bytes) (calls : List PipeCall)
    (h : FileView.AllAllowed ⟨content, 0, content.length, false⟩ calls) :
    ((IStream.ofBytes false content).pipeRun calls).1 = FileView.answers ⟨content, 0, content.length, false⟩ calls ∧
      ((IStream.ofBytes false content).pipeRun calls).2.data =
        (FileView.finally ⟨content, 0, content.length, false⟩ calls).content := by
  have key : ∀ (calls : List PipeCall) (s : IStream) (v : FileView), StreamHistory.PipeShows s v → v.AllAllowed calls →
      (s.pipeRun calls).1 = v.answers calls ∧ (s.pipeRun calls).2.data = (v.finally calls).content := by
    intro calls
    induction calls with
    | nil => intro s v hs _; exact ⟨rfl, hs.data⟩
    | cons c cs ih =>
      intro s v hs ha
      obtain ⟨e1, e2⟩ := StreamHistory.step_shows hs c ha.1
      obtain ⟨r1, r2⟩ := ih _ _ e2 ha.2
      refine ⟨?_, r2⟩
      change (s.pipeCall c).1 :: _ = v.expected c :: _
      rw [e1, r1]
  exact key calls _ _ ⟨rfl, rfl, rfl, rfl, Nat.zero_le _, Nat.le_refl _, rfl, fun h => by cases h⟩ h

-- the end is met twice, and the stream is positioned before it is written again
example : FileView.AllAllowed ⟨b! "abc", 0, 3, false⟩
    [.read 2, .write (b! "def"), .whole, .peek, .seekIn (-2) .end_, .seekOut 1 .beginning, .write (b! "XYZ"), .tellOut,
     .read 9, .seekIn 0 .beginning, .get, .tellIn, .whole] := by
  simp [FileView.AllAllowed, FileView.Allowed, FileView.after, seekPlace, overwritten]

example : ((IStream.ofBytes false (b! "abc")).pipeRun
    [.read 2, .write (b! "def"), .whole, .peek, .seekIn (-2) .end_, .seekOut 1 .beginning, .write (b! "XYZ"), .tellOut,
     .read 9, .seekIn 0 .beginning, .get, .tellIn, .whole]).1 =
    [.bytes (b! "ab"), .done, .bytes (b! "cdef"), .byte none, .done, .done, .done, .place 4, .bytes (b! "ef"), .done,
     .byte (some 97), .place 1, .bytes (b! "XYZef")] := by decide +kernel

/-- Once the end was met, no call but positioning for reading changes that, and none changes the content. -/
theorem StreamHistory.ended_step (s : IStream) (c : PipeCall) (hg : s.good = false) (hc : ∀ p way, c ≠ .seekIn p way) :
    (s.pipeCall c).2.good = false ∧ (s.pipeCall c).2.data = s.data := by
  have hloop : ∀ (f : Nat) (s : IStream) (acc : Bytes), s.good = false → 0 < f →
      s.toBufferLoop 4096 f acc = .ok (acc, { s with fail := true }) := by
    intro f s acc hg hf
    obtain ⟨f, rfl⟩ : ∃ k, f = k + 1 := ⟨f - 1, by omega⟩
    rw [IStream.toBufferLoop, IStream.rawRead, if_neg (by rw [hg]; simp)]
  have hg' : ¬ s.good = true := by rw [hg]; simp
  have hfail : ({ s with fail := true } : IStream).good = false := by simp [IStream.good]
  cases c with
  | write d => simp only [IStream.pipeCall, IStream.write, if_neg hg']; exact ⟨hfail, trivial⟩
  | read n => simp only [IStream.pipeCall, IStream.read, IStream.rawRead, if_neg hg']; exact ⟨hfail, trivial⟩
  | peek => simp only [IStream.pipeCall, IStream.peek, if_neg hg']; exact ⟨hfail, trivial⟩
  | get => simp only [IStream.pipeCall, IStream.get, if_neg hg']; exact ⟨hfail, trivial⟩
  | whole =>
    simp only [IStream.pipeCall, IStream.toBuffer, hloop _ s [] hg (Nat.succ_pos _)]
    exact ⟨hfail, trivial⟩
  | seekIn p way => exact absurd rfl (hc p way)
  | seekOut p way =>
    have hq : ∀ q, (s.setOutputPosition q).good = false ∧ (s.setOutputPosition q).data = s.data := by
      intro q
      rw [IStream.setOutputPosition]
      split
      · exact ⟨hg, rfl⟩
      · split
        · exact ⟨hg, rfl⟩
        · exact ⟨hfail, rfl⟩
    exact hq _
  | tellIn =>
    simp only [IStream.pipeCall, IStream.position, IStream.tellg, if_neg hg']
    split
    · exact ⟨hg, rfl⟩
    · exact ⟨hfail, rfl⟩
  | tellOut => exact ⟨hg, rfl⟩

/-- The claim **C74** is false, in full generality: from the moment a stream in memory has met its end, all that is written to it
is dropped, whatever is written, read and asked and wherever it is positioned for writing, until it is positioned for
reading. -/
theorem C74_lost_counterexample (s : IStream) (hend : s.eof = true ∨ s.fail = true) (calls : List PipeCall)
    (hno : ∀ p way, PipeCall.seekIn p way ∉ calls) : (s.pipeRun calls).2.data = s.data := by
  have hgood : s.good = false := by
    rcases hend with h | h <;> simp [IStream.good, h]
  clear hend
  induction calls generalizing s with
  | nil => rfl
  | cons c cs ih =>
    obtain ⟨e1, e2⟩ := StreamHistory.ended_step s c hgood (fun p way e => hno p way (by simp [e]))
    exact (ih (s.pipeCall c).2 (fun p way hm => hno p way (List.mem_cons_of_mem _ hm)) e1).trans e2

example : ((IStream.ofBytes false (b! "abc")).pipeRun [.whole]).2.eof = true := by decide +kernel

end VPdf
