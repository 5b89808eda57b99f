/-
  Lemmas for streams.
-/
import Verif.Model.Stream
import Verif.Lemmas.Opening

namespace VPdf
open Spec

theorem good_iff (s : IStream) : s.good = true ↔ s.eof = false ∧ s.fail = false := by
  cases h1 : s.eof <;> cases h2 : s.fail <;> simp [IStream.good, h1, h2]

theorem drop_of_get {d : Bytes} {n : Nat} {c : Byte} (h : d[n]? = some c) : d.drop n = c :: d.drop (n + 1) := by
  rcases List.getElem?_eq_some_iff.mp h with ⟨hx, rfl⟩
  exact List.drop_eq_getElem_cons hx

theorem drop_of_none {d : Bytes} {n : Nat} (h : d[n]? = none) : d.drop n = [] := by
  rw [List.getElem?_eq_none_iff] at h
  exact List.drop_eq_nil_iff.mpr h

theorem peek_some {s : IStream} (hg : s.good = true) {c : Byte} (h : s.data[s.getPos]? = some c) :
    s.peek = (some c, s) := by
  rw [IStream.peek, if_pos hg, h]

theorem peek_none {s : IStream} (hg : s.good = true) (h : s.data[s.getPos]? = none) :
    s.peek = (none, { s with eof := true }) := by
  rw [IStream.peek, if_pos hg, h]

theorem get_some {s : IStream} (hg : s.good = true) {c : Byte} (h : s.data[s.getPos]? = some c) :
    s.get = (some c, { s with getPos := s.getPos + 1 }) := by
  rw [IStream.get, if_pos hg, h]

/-- One line from a good stream.  The end flag tells that the line was ended by the end of the data, or that the byte behind CR
was looked for in vain. -/
theorem readlineLoop_spec : ∀ (f : Nat) (s : IStream) (acc : Bytes), s.good = true → s.data.length - s.getPos < f →
    ∃ l s', s.readlineLoop f acc = .ok (acc ++ l, s') ∧ FirstLine (s.data.drop s.getPos) l (s.data.drop s'.getPos) ∧
      s'.data = s.data ∧ s'.file = s.file ∧ s'.fail = false ∧ s.getPos ≤ s'.getPos ∧
      (s'.eof = false → s.getPos < s'.getPos ∧ s.getPos < s.data.length ∧ s.data.drop s.getPos ≠ l) ∧
      (s'.eof = true → s.data.drop s'.getPos = []) ∧
      (s.getPos ≤ s.data.length → s'.getPos ≤ s.data.length) := by
  intro f
  induction f with
  | zero => intro s acc hg hl; omega
  | succ f ih =>
    intro s acc hg hl
    obtain ⟨he, hf⟩ := (good_iff s).mp hg
    cases hc : s.data[s.getPos]? with
    | none =>
      refine ⟨[], { s with eof := true }, ?_, ?_, rfl, rfl, hf, Nat.le_refl _, by simp, fun _ => drop_of_none hc, id⟩
      · rw [IStream.readlineLoop.eq_def]
        dsimp only
        rw [peek_none hg hc]
        dsimp only
        rw [List.append_nil]
      · rw [drop_of_none hc]
        exact ⟨by simp, Or.inr (Or.inr (Or.inr ⟨rfl, rfl⟩))⟩
    | some c =>
      have hlt : s.getPos < s.data.length := by
        rcases List.getElem?_eq_some_iff.mp hc with ⟨hx, -⟩
        exact hx
      have hd := drop_of_get hc
      rw [IStream.readlineLoop.eq_def]
      dsimp only
      rw [peek_some hg hc]
      dsimp only
      rw [get_some hg hc]
      dsimp only
      have hg' : ({ s with getPos := s.getPos + 1 } : IStream).good = true := hg
      by_cases h13 : c = 0x0D
      · rw [if_pos h13]
        subst h13
        cases hc2 : s.data[s.getPos + 1]? with
        | none =>
          rw [peek_none hg' hc2]
          dsimp only
          refine ⟨[], { s with getPos := s.getPos + 1, eof := true }, by rw [List.append_nil], ?_, rfl, rfl, hf,
            Nat.le_succ _, by simp, fun _ => drop_of_none hc2, fun _ => hlt⟩
          rw [hd, drop_of_none hc2]
          exact ⟨by simp, Or.inr (Or.inr (Or.inl ⟨rfl, by simp⟩))⟩
        | some c2 =>
          rw [peek_some hg' hc2]
          have hd2 := drop_of_get hc2
          have hlt2 : s.getPos + 1 < s.data.length := by
            rcases List.getElem?_eq_some_iff.mp hc2 with ⟨hx, -⟩
            exact hx
          by_cases h10 : c2 = 0x0A
          · subst h10
            have hi : ({ s with getPos := s.getPos + 1 } : IStream).ignore = { s with getPos := s.getPos + 2 } := by
              rw [IStream.ignore, if_pos hg']
              dsimp only
              rw [hc2]
            refine ⟨[], { s with getPos := s.getPos + 2 }, by rw [List.append_nil, ← hi]; rfl, ?_, rfl, rfl, hf,
              by simp, by simp [hlt, hd], by simp [he], fun _ => hlt2⟩
            rw [hd, hd2]
            exact ⟨by simp, Or.inl rfl⟩
          · refine ⟨[], { s with getPos := s.getPos + 1 }, ?_, ?_, rfl, rfl, hf,
              by simp, by simp [hlt, hd], by simp [he], fun _ => hlt⟩
            · rw [List.append_nil]
              split
              · rename_i h
                exact absurd (Option.some.inj (Prod.mk.inj h).1) h10
              · rename_i h
                rw [(Prod.mk.inj h).2]
            · rw [hd]
              refine ⟨by simp, Or.inr (Or.inr (Or.inl ⟨rfl, ?_⟩))⟩
              rw [hd2]
              simpa using h10
      · rw [if_neg h13]
        by_cases h10 : c = 0x0A
        · rw [if_pos h10]
          subst h10
          refine ⟨[], { s with getPos := s.getPos + 1 }, by rw [List.append_nil], ?_, rfl, rfl, hf,
            by simp, by simp [hlt, hd], by simp [he], fun _ => hlt⟩
          rw [hd]
          exact ⟨by simp, Or.inr (Or.inl rfl)⟩
        · rw [if_neg h10]
          obtain ⟨l, s', e1, ⟨e2, e2'⟩, e3, e4, e5, e6, e7, e8, e9⟩ := ih { s with getPos := s.getPos + 1 } (acc ++ [c]) hg'
            (by change s.data.length - (s.getPos + 1) < f; omega)
          dsimp only at e2' e3 e4 e6 e7 e8 e9
          refine ⟨c :: l, s', ?_, ⟨?_, ?_⟩, e3, e4, e5, by omega, fun h => ⟨by omega, hlt, by rw [hd]; simpa using (e7 h).2.2⟩, e8, fun _ => e9 hlt⟩
          · rw [e1, List.append_assoc]
            rfl
          · intro x hx
            rcases List.mem_cons.mp hx with rfl | hx
            · exact ⟨h13, h10⟩
            · exact e2 x hx
          · rw [hd]
            simpa using e2'

theorem readline_spec {f : Nat} {s : IStream} (hg : s.good = true) (hf : s.data.length - s.getPos < f) :
    ∃ l s', s.readline f = .ok (l, s') ∧ FirstLine (s.data.drop s.getPos) l (s.data.drop s'.getPos) ∧
      s'.data = s.data ∧ s'.file = s.file ∧ s'.fail = false ∧ s.getPos ≤ s'.getPos ∧
      (s'.eof = false → s.getPos < s'.getPos ∧ s.getPos < s.data.length ∧ s.data.drop s.getPos ≠ l) ∧
      (s'.eof = true → s.data.drop s'.getPos = []) ∧
      (s.getPos ≤ s.data.length → s'.getPos ≤ s.data.length) := by
  obtain ⟨h1, h2⟩ := (good_iff s).mp hg
  obtain ⟨l, s', e1, e⟩ := readlineLoop_spec f s [] hg hf
  refine ⟨l, s', ?_, e⟩
  rw [IStream.readline, if_neg (by simp [h2]), if_neg (by simp [h1]), e1, List.nil_append]

theorem readLines_spec : ∀ (n : Nat) (s : IStream) (f : Nat), s.good = true → s.data.length - s.getPos + 1 < n →
    s.data.length - s.getPos < f →
    ∃ ls terms s', s.readLines f n = .ok (ls, s') ∧ s'.eof = true ∧ s'.data = s.data ∧ terms.length = ls.length ∧
      (∀ l ∈ ls, ∀ c ∈ l, c ≠ 13 ∧ c ≠ 10) ∧
      (∀ t ∈ terms, t ∈ ([[], [13], [10], [13, 10]] : List Bytes)) ∧
      (∀ t ∈ terms.dropLast, t ≠ []) ∧
      s.data.drop s.getPos = (List.zipWith (· ++ ·) ls terms).flatten := by
  intro n
  induction n with
  | zero => intro s f hg hn hf; omega
  | succ n ih =>
    intro s f hg hn hf
    obtain ⟨h1, h2⟩ := (good_iff s).mp hg
    obtain ⟨l, s', e1, ⟨e2, e2'⟩, e3, e4, e5, e6, e7, e8, e9⟩ := readline_spec hg hf
    have hterm : ∃ t : Bytes, t ∈ ([[], [13], [10], [13, 10]] : List Bytes) ∧
        s.data.drop s.getPos = l ++ t ++ s.data.drop s'.getPos ∧ (t = [] → s.data.drop s'.getPos = [] ∧
          s.data.drop s.getPos = l) := by
      rcases e2' with h | h | ⟨h, -⟩ | ⟨h, h'⟩
      · exact ⟨[13, 10], by simp, h, by simp⟩
      · exact ⟨[10], by simp, h, by simp⟩
      · exact ⟨[13], by simp, h, by simp⟩
      · exact ⟨[], by simp, by rw [h', h]; simp, fun _ => ⟨h', h⟩⟩
    obtain ⟨t, ht, hdata, hempty⟩ := hterm
    cases heof : s'.eof with
    | true =>
      refine ⟨[l], [t], s', ?_, heof, e3, rfl, by simpa using e2, by simpa using ht, by simp, ?_⟩
      · rw [IStream.readLines.eq_def]
        dsimp only
        rw [if_neg (by simp [h1]), e1]
        change (IStream.readLines f n s' >>= _) = _
        rw [IStream.readLines.eq_def]
        cases n with
        | zero => omega
        | succ n =>
          dsimp only
          rw [if_pos heof]
          rfl
      · rw [hdata, e8 heof]
        simp
    | false =>
      obtain ⟨e7a, e7b, e7c⟩ := e7 heof
      have hg' : s'.good = true := (good_iff s').mpr ⟨heof, e5⟩
      obtain ⟨ls, terms, s2, f1, f2, f3, f4, f5, f6, f7, f8⟩ := ih s' f hg' (by rw [e3]; omega) (by rw [e3]; omega)
      rw [e3] at f3 f8
      have hne : t ≠ [] := by
        intro h
        exact e7c (hempty h).2
      refine ⟨l :: ls, t :: terms, s2, ?_, f2, f3, by simp [f4], ?_, ?_, ?_, ?_⟩
      · rw [IStream.readLines.eq_def]
        dsimp only
        rw [if_neg (by simp [h1]), e1]
        change (IStream.readLines f n s' >>= _) = _
        rw [f1]
        rfl
      · intro x hx
        rcases List.mem_cons.mp hx with rfl | hx
        · exact e2
        · exact f5 x hx
      · intro x hx
        rcases List.mem_cons.mp hx with rfl | hx
        · exact ht
        · exact f6 x hx
      · intro x hx
        cases terms with
        | nil => simp at hx
        | cons y ys =>
          rw [List.dropLast_cons_cons] at hx
          rcases List.mem_cons.mp hx with rfl | hx
          · exact hne
          · exact f7 x hx
      · rw [hdata, f8]
        simp

/-- The data and the kind never change by reading. -/
theorem apply_same (s : IStream) (op : StreamOp) : (s.apply op).data = s.data ∧ (s.apply op).file = s.file := by
  cases op with
  | read n =>
    simp only [IStream.apply, IStream.read, IStream.rawRead]
    split
    · split <;> exact ⟨rfl, rfl⟩
    · exact ⟨rfl, rfl⟩
  | readline =>
    simp only [IStream.apply]
    by_cases hg : s.good = true
    · obtain ⟨l, s', e1, -, e3, e4, -⟩ := readline_spec (f := s.data.length + 1) hg (by omega)
      rw [e1]
      exact ⟨e3, e4⟩
    · have : s.readline (s.data.length + 1) = .error .throw := by
        rw [IStream.readline]
        split
        · rfl
        · split
          · rfl
          · rename_i h1 h2
            exact absurd ((good_iff s).mpr ⟨by simpa using h2, by simpa using h1⟩) hg
      rw [this]
      exact ⟨rfl, rfl⟩
  | peek =>
    simp only [IStream.apply, IStream.peek]
    split
    · split <;> exact ⟨rfl, rfl⟩
    · exact ⟨rfl, rfl⟩
  | get =>
    simp only [IStream.apply, IStream.get]
    split
    · split <;> exact ⟨rfl, rfl⟩
    · exact ⟨rfl, rfl⟩
  | ignore =>
    simp only [IStream.apply, IStream.ignore]
    split
    · split <;> exact ⟨rfl, rfl⟩
    · exact ⟨rfl, rfl⟩
  | position =>
    simp only [IStream.apply, IStream.position, IStream.tellg]
    split
    · exact ⟨rfl, rfl⟩
    · split <;> exact ⟨rfl, rfl⟩
  | setPosition p way =>
    have hp : ∀ s : IStream, s.position.2.data = s.data ∧ s.position.2.file = s.file := by
      intro s
      simp only [IStream.position, IStream.tellg]
      split
      · exact ⟨rfl, rfl⟩
      · split <;> exact ⟨rfl, rfl⟩
    have hk : ∀ (s : IStream) (q : Int), (s.seekg q).data = s.data ∧ (s.seekg q).file = s.file := by
      intro s q
      simp only [IStream.seekg]
      split
      · exact ⟨rfl, rfl⟩
      · split <;> exact ⟨rfl, rfl⟩
    simp only [IStream.apply, IStream.setPosition]
    split
    · exact hp s
    · generalize hs1 : (if (s.position.2.eof || s.position.2.fail) = true then
        ({ s.position.2 with eof := false, fail := false } : IStream) else s.position.2) = s1
      have h1 : s1.data = s.data ∧ s1.file = s.file := by
        rw [← hs1]
        split <;> exact hp s
      split
      · exact ⟨(hk s1 _).1.trans h1.1, (hk s1 _).2.trans h1.2⟩
      · exact ⟨(hp _).1.trans ((hk s1 _).1.trans h1.1), (hp _).2.trans ((hk s1 _).2.trans h1.2)⟩

theorem applies_same (ops : List StreamOp) : ∀ s : IStream,
    (ops.foldl IStream.apply s).data = s.data ∧ (ops.foldl IStream.apply s).file = s.file := by
  induction ops with
  | nil => intro s; exact ⟨rfl, rfl⟩
  | cons op ops ih =>
    intro s
    obtain ⟨h1, h2⟩ := ih (s.apply op)
    obtain ⟨h3, h4⟩ := apply_same s op
    exact ⟨h1.trans h3, h2.trans h4⟩

/-- Positioning to a place that exists always makes the stream usable. -/
theorem setPosition_spec (s : IStream) (p : Int) (way : SeekDir) (hp : p ≠ -1)
    (hok : s.seekable (s.target p way) = true) :
    (s.setPosition p way).good = true ∧ ((s.setPosition p way).getPos : Int) = s.target p way := by
  have hpos : s.position.2.data = s.data ∧ s.position.2.file = s.file ∧ s.position.2.getPos = s.getPos := by
    simp only [IStream.position, IStream.tellg]
    split
    · exact ⟨rfl, rfl, rfl⟩
    · split <;> exact ⟨rfl, rfl, rfl⟩
  rw [IStream.setPosition]
  dsimp only
  rw [if_neg hp]
  generalize hs1 : (if (s.position.2.eof || s.position.2.fail) = true then
        ({ s.position.2 with eof := false, fail := false } : IStream) else s.position.2) = s1
  have h1 : s1.data = s.data ∧ s1.file = s.file ∧ s1.getPos = s.getPos ∧ s1.eof = false ∧ s1.fail = false := by
    rw [← hs1]
    split
    · exact ⟨hpos.1, hpos.2.1, hpos.2.2, rfl, rfl⟩
    · rename_i h
      simp at h
      exact ⟨hpos.1, hpos.2.1, hpos.2.2, h.1, h.2⟩
  obtain ⟨a1, a2, a3, a4, a5⟩ := h1
  have ht : s1.target p way = s.target p way := by
    cases way <;> simp [IStream.target, a1, a3]
  have hk : s1.seekable (s.target p way) = true := by
    rw [← hok, IStream.seekable, IStream.seekable, a1, a2]
  have hs : s1.seekg (s1.target p way) = { s1 with getPos := (s.target p way).toNat, eof := false } := by
    rw [IStream.seekg]
    dsimp only
    rw [if_neg (by simp [a5]), if_pos (by rw [ht]; exact hk), ht]
  have h0 : 0 ≤ s.target p way := by
    simp [IStream.seekable] at hok
    exact hok.1
  rw [hs]
  dsimp only
  rw [if_neg (by simp [a5])]
  have hgood : ({ s1 with getPos := (s.target p way).toNat, eof := false } : IStream).good = true :=
    (good_iff _).mpr ⟨rfl, a5⟩
  have hfin : ({ s1 with getPos := (s.target p way).toNat, eof := false } : IStream).position.2 =
      { s1 with getPos := (s.target p way).toNat, eof := false } := by
    rw [IStream.position]
    dsimp only
    rw [if_neg (by simp), IStream.tellg, if_pos hgood]
  rw [hfin]
  refine ⟨hgood, ?_⟩
  change (((s.target p way).toNat : Nat) : Int) = _
  omega

theorem read_good {s : IStream} (hg : s.good = true) (n : Nat) :
    (s.read n).1 = (s.data.drop s.getPos).take n := by
  rw [IStream.read, IStream.rawRead, if_pos hg]
  dsimp only
  split <;> rfl

theorem toBufferLoop_spec (size : Nat) (hsize : 0 < size) : ∀ (f : Nat) (s : IStream) (acc : Bytes), s.good = true →
    s.data.length - s.getPos + 1 < f →
    ∃ s', s.toBufferLoop size f acc = .ok (acc ++ s.data.drop s.getPos, s') := by
  intro f
  induction f with
  | zero => intro s acc hg hf; omega
  | succ f ih =>
    intro s acc hg hf
    rw [IStream.toBufferLoop.eq_def]
    dsimp only
    have hr : s.rawRead size = if ((s.data.drop s.getPos).take size).length = size then
        ((s.data.drop s.getPos).take size, { s with getPos := s.getPos + size })
      else ((s.data.drop s.getPos).take size,
        { s with getPos := s.getPos + ((s.data.drop s.getPos).take size).length, eof := true, fail := true }) := by
      rw [IStream.rawRead, if_pos hg]
    rw [hr]
    by_cases hfull : ((s.data.drop s.getPos).take size).length = size
    · rw [if_pos hfull]
      have hne : (s.data.drop s.getPos).take size ≠ [] := by
        intro h
        rw [h] at hfull
        simp at hfull
        omega
      have hle : s.getPos + size ≤ s.data.length := by
        rw [List.length_take, List.length_drop] at hfull
        omega
      obtain ⟨s', hs'⟩ := ih { s with getPos := s.getPos + size } (acc ++ (s.data.drop s.getPos).take size) hg
        (by change s.data.length - (s.getPos + size) + 1 < f; omega)
      refine ⟨s', ?_⟩
      split
      · rename_i h
        exact absurd (Prod.mk.inj h).1 hne
      · rename_i h
        rw [← (Prod.mk.inj h).1, ← (Prod.mk.inj h).2, hs', List.append_assoc]
        dsimp only
        rw [← List.drop_drop, List.take_append_drop]
    · rw [if_neg hfull]
      have hall : (s.data.drop s.getPos).take size = s.data.drop s.getPos := by
        rw [List.take_of_length_le]
        rw [List.length_take] at hfull
        omega
      rw [hall]
      split
      · rename_i h
        rw [(Prod.mk.inj h).1, List.append_nil]
        exact ⟨_, rfl⟩
      · rename_i got s1 _ h
        obtain ⟨h1, h2⟩ := Prod.mk.inj h
        rw [← h1, ← h2]
        cases f with
        | zero => omega
        | succ f =>
          rw [IStream.toBufferLoop.eq_def]
          dsimp only
          rw [IStream.rawRead, if_neg (by simp [IStream.good])]
          exact ⟨_, rfl⟩

end VPdf
