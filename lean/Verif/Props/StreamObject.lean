import Verif.Lemmas.StreamObject
/-
  C120: a stream has the body that was set or shown last, whatever else a program does, and this body is what is written.
-/
namespace VPdf

/-- The body a program sees when the stream knows it. -/
theorem seesBody_known {m : Overflow} {k : Codecs} {w : StreamWorld} {s : Nat} {d : Bytes}
    (h : (w.streams[s]?).bind PStream.decoded = some d) :
    (w.step m k (.getBody s)).2 = .ok (.buffer (.decoded s)) ∧
    ((w.step m k (.getBody s)).1.step m k (.getData (.decoded s))).2 = .ok (.data d) := by
  cases hs : w.streams[s]? with
  | none => rw [hs] at h; cases h
  | some x =>
    have hx : x.decoded = some d := by rw [hs] at h; exact h
    have hb : x.body m k = (x, .ok true) := by simp [PStream.body, hx]
    have h1 := on_same (w := w) (fun x => ((x.body m k).1, (x.body m k).2.map fun b => StreamAnswer.buffer (if b then .decoded s else .decrypted s))) hs
    rw [hb] at h1
    refine ⟨h1.2, ?_⟩
    have h2 : ((w.step m k (.getBody s)).1.contents (.decoded s)) = some d := by
      show ((w.step m k (.getBody s)).1.streams[s]?).bind PStream.decoded = some d
      rw [show (w.step m k (.getBody s)).1.streams[s]? = some x from h1.1]
      exact hx
    show (match (w.step m k (.getBody s)).1.contents (.decoded s) with | none => _ | some d => _ : StreamWorld × Res StreamAnswer).2 = _
    rw [h2]

/-- What is written of a stream that knows its body. -/
theorem written_known {m : Overflow} {k : Codecs} (hk : Spec.Lossless k) {w : StreamWorld} (hw : AllGenuine m k w) {s : Nat} {d : Bytes}
    {x : PStream} (hs : w.streams[s]? = some x) (hx : x.decoded = some d) (hfile : x.hasFile = true)
    (hf : Spec.FlateOnly x.filter) :
    ∃ v, (w.step m k (.write s)).2 = .ok (.data v) ∧ decodeEntry m k x.filter v = .ok d := by
  have hstep : (w.step m k (.write s)).2 = (x.encoded k).map .data := by
    show (match w.streams[s]? with | none => _ | some x => _ : StreamWorld × Res StreamAnswer).2 = _
    rw [hs]
  rw [hstep]
  cases hd : x.dirty with
  | false =>
    refine ⟨x.raw, by simp [PStream.encoded, hfile, hd, Except.map], ?_⟩
    exact (hw s x hs hd).2 d hx
  | true =>
    obtain ⟨v, hv⟩ := flateOnly_encodes k hf d
    exact ⟨v, by simp [PStream.encoded, hfile, hd, hx, hv, Except.map], flateOnly_decodes hk hf hv⟩

/-- After a call that sets or shows the body the stream knows it. -/
theorem settles_known {m : Overflow} {k : Codecs} {w : StreamWorld} {s : Nat} {d : Bytes} {c : StreamCall}
    (h : Spec.Settles m k w s d c) : ((w.step m k c).1.streams[s]?).bind PStream.decoded = some d := by
  have hdata : ∀ (w : StreamWorld) (b : BufferRef), (w.step m k (.getData b)).2 = .ok (.data d) → w.contents b = some d := by
    intro w b hb
    have hb : (match w.contents b with | none => (w, .error .invalidArgument) | some d => (w, .ok (.data d)) :
      StreamWorld × Res StreamAnswer).2 = .ok (.data d) := hb
    cases hc : w.contents b with
    | none => rw [hc] at hb; cases hb
    | some e => rw [hc] at hb; injection hb with hb; injection hb with hb; rw [hb]
  have hon : ∀ f : PStream → PStream × Res StreamAnswer, (∀ x, (f x).1.decoded = some d) → (w.on s f).2 = .ok .done →
      (((w.on s f).1).streams[s]?).bind PStream.decoded = some d := by
    intro f hf hok
    cases hs : w.streams[s]? with
    | none =>
      unfold StreamWorld.on at hok
      rw [hs] at hok
      cases hok
    | some x => rw [(on_same f hs).1]; exact hf x
  cases h with
  | set b given ok =>
    have hc := hdata w b given
    have e : w.step m k (.setBody s b) =
        if b = .decoded s then (w, .error .ub) else w.on s fun x => ({ x with decoded := some d, dirty := true }, .ok .done) := by
      show (if b = .decoded s then _ else _ : StreamWorld × Res StreamAnswer) = _
      rw [hc]
    rw [e] at ok ⊢
    by_cases hb : b = .decoded s
    · rw [if_pos hb] at ok; cases ok
    · rw [if_neg hb] at ok ⊢
      exact hon _ (fun _ => rfl) ok
  | edit ok =>
    cases hc : w.contents (.decoded s) with
    | none =>
      have e : w.step m k (.setData (.decoded s) d) = (w, .error .invalidArgument) := by
        show (match w.contents (.decoded s) with | none => _ | some _ => _ : StreamWorld × Res StreamAnswer) = _
        rw [hc]
      rw [e] at ok; cases ok
    | some y =>
      have e : w.step m k (.setData (.decoded s) d) =
          w.on s fun x => ({ x with decoded := some d, dirty := true }, .ok .done) := by
        show (match w.contents (.decoded s) with | none => _ | some _ => _ : StreamWorld × Res StreamAnswer) = _
        rw [hc]
      rw [e] at ok ⊢
      exact hon _ (fun _ => rfl) ok
  | read ok shown => exact hdata _ (.decoded s) shown

/-- **C120** (partial; the calls in `post` may do anything else with this and other streams, in particular change its filters, read it,
copy it, write it): once the body of a stream was set, changed or shown, the stream has this body until another one is set; and what is
written decodes to it with the filters the stream has then.  Missing: encoders other than Flate without predictor (see C12); bodies that
were never asked for (C120_unread_counterexample), buffers of streams with a null filter (C120_null_counterexample), and setting a body
to itself (C120_self_counterexample). -/
theorem C120_body_partial (m : Overflow) (k : Codecs) (hk : Spec.Lossless k) (pre : List StreamCall) (c : StreamCall) (s : Nat) (d : Bytes)
    (hset : Spec.Settles m k (StreamWorld.start.run m k pre) s d c) (post : List StreamCall) (hpost : ∀ c ∈ post, ¬ Spec.Rewrites s c) :
    ∃ x, (StreamWorld.start.run m k (pre ++ c :: post)).streams[s]? = some x ∧
      Spec.SeesBody m k (StreamWorld.start.run m k (pre ++ c :: post)) s d ∧
      (x.hasFile = true → Spec.FlateOnly x.filter →
        ∃ v, ((StreamWorld.start.run m k (pre ++ c :: post)).step m k (.write s)).2 = .ok (.data v) ∧
          decodeEntry m k x.filter v = .ok d) := by
  have hrun : StreamWorld.start.run m k (pre ++ c :: post) = ((((StreamWorld.start.run m k pre).step m k c).1).run m k post) := by
    simp [StreamWorld.run, List.foldl_append]
  rw [hrun]
  have hknown := settled_run (m := m) (k := k) post (settles_known hset) hpost
  have hgen := allGenuine_run post (allGenuine_step (allGenuine_run pre (allGenuine_start m k)) c)
  cases hs : (((StreamWorld.start.run m k pre).step m k c).1.run m k post).streams[s]? with
  | none => rw [hs] at hknown; cases hknown
  | some x =>
    have hx : x.decoded = some d := by rw [hs] at hknown; exact hknown
    exact ⟨x, rfl, ⟨_, seesBody_known (by rw [hs]; exact hx)⟩, fun hfile hf => written_known hk hgen hs hx hfile hf⟩

/-- **C120**, streams that are not changed: a stream that was read from a file and that no call changes is written with the bytes it has
in the file, however often it and other streams are read, copied and written; and its body is what the filters make of these bytes. -/
theorem C120_unchanged (m : Overflow) (k : Codecs) (w : StreamWorld) (f : Option FilterEntry) (d : Bytes)
    (post : List StreamCall) (hpost : ∀ c ∈ post, ¬ Spec.Touches w.streams.length c) :
    (w.step m k (.load f d)).2 = .ok (.stream w.streams.length) ∧
    ((((w.step m k (.load f d)).1).run m k post).step m k (.write w.streams.length)).2 = .ok (.data d) ∧
    ∀ b, decodeEntry m k f d = .ok b → Spec.SeesBody m k (((w.step m k (.load f d)).1).run m k post) w.streams.length b := by
  have inv : ∀ (calls : List StreamCall) (v : StreamWorld) (s : Nat) (x : PStream), v.streams[s]? = some x →
      (x.filter = f ∧ x.raw = d ∧ x.dirty = false ∧ x.hasFile = true ∧ Genuine m k x) → (∀ c ∈ calls, ¬ Spec.Touches s c) →
      ∃ y, (v.run m k calls).streams[s]? = some y ∧ (y.filter = f ∧ y.raw = d ∧ y.dirty = false ∧ y.hasFile = true ∧ Genuine m k y) := by
    intro calls
    induction calls with
    | nil => intro v s x hs hx _; exact ⟨x, hs, hx⟩
    | cons c cs ih =>
      intro v s x hs hx hc
      have hcs : ∀ c ∈ cs, ¬ Spec.Touches s c := fun c' h' => hc c' (List.mem_cons_of_mem _ h')
      have hc0 : ¬ Spec.Touches s c := hc c (List.mem_cons_self ..)
      by_cases h1 : c = .getBody s
      · subst h1
        refine ih _ s _ (on_same _ hs).1 ?_ hcs
        have hg := genuine_body hx.2.2.2.2
        rcases body_cases m k x with ⟨d, _, e⟩ | ⟨_, _, _, e⟩ | ⟨_, b, _, ⟨_, e⟩ | ⟨_, _, _, _, e⟩ | ⟨_, _, d, _, e⟩⟩ <;>
        · rw [e] at hg ⊢
          exact ⟨hx.1, hx.2.1, hx.2.2.1, hx.2.2.2.1, hg⟩
      · by_cases h2 : c = .attach s
        · subst h2
          exact ih _ s _ (on_same _ hs).1 ⟨hx.1, hx.2.1, hx.2.2.1, rfl, hx.2.2.2.2⟩ hcs
        · exact ih _ s x (step_elsewhere m k hs ⟨hc0, h1, h2⟩) hx hcs
  have h0 : ((w.step m k (.load f d)).1).streams[w.streams.length]? = some ⟨f, d, none, none, false, true⟩ := by
    show (w.streams ++ [(⟨f, d, none, none, false, true⟩ : PStream)])[w.streams.length]? = _
    rw [List.getElem?_append_right (Nat.le_refl _), Nat.sub_self]; rfl
  obtain ⟨y, hy, e1, e2, e3, e4, e5⟩ := inv post _ _ _ h0 ⟨rfl, rfl, rfl, rfl, genuine_fresh m k f d false true⟩ hpost
  refine ⟨rfl, ?_, ?_⟩
  · show (match (((w.step m k (.load f d)).1).run m k post).streams[w.streams.length]? with | none => _ | some x => _ :
      StreamWorld × Res StreamAnswer).2 = _
    rw [hy]
    show (y.encoded k).map StreamAnswer.data = _
    simp [PStream.encoded, e4, e3, e2, Except.map]
  · intro b hb
    have hd : y.bodyDecrypted = .ok (d, { y with decrypted := some d }) := by
      unfold PStream.bodyDecrypted
      cases hdec : y.decrypted with
      | none => rw [e4, e2]; rfl
      | some c =>
        have hcd : c = d := ((e5 e3).1 c hdec).trans e2
        subst hcd
        show Except.ok (c, y) = Except.ok (c, { y with decrypted := some c })
        rw [← hdec]
    have hon := on_same (w := ((w.step m k (.load f d)).1).run m k post)
      (fun x => ((x.body m k).1, (x.body m k).2.map fun b => StreamAnswer.buffer (if b then .decoded w.streams.length else .decrypted w.streams.length))) hy
    have hget : ∀ (q : BufferRef) (v : StreamWorld), v.contents q = some b → (v.step m k (.getData q)).2 = .ok (.data b) := by
      intro q v hq
      show (match v.contents q with | none => _ | some d => _ : StreamWorld × Res StreamAnswer).2 = _
      rw [hq]
    cases hdec : y.decoded with
    | some z =>
      have hz : z = b := by
        have := (e5 e3).2 z hdec
        rw [e1, e2, hb] at this
        injection this with this
        exact this.symm
      subst hz
      exact ⟨_, seesBody_known (by rw [hy]; exact hdec)⟩
    | none =>
      cases hf : f with
      | none =>
        have hyb : y.body m k = ({ y with decrypted := some d }, .ok false) := by simp [PStream.body, hdec, hd, e1, hf]
        rw [hyb] at hon
        refine ⟨.decrypted w.streams.length, hf ▸ hon.2, ?_⟩
        rw [hf] at hb
        injection hb with hb
        refine hf ▸ hget _ _ ?_
        refine (congrArg (fun o => Option.bind o PStream.decrypted) hon.1).trans ?_
        rw [← hb]; rfl
      | some e =>
        have hb' : decodeBody m k e d = .ok b := by rw [hf] at hb; exact hb
        have hyb : y.body m k = ({ y with decrypted := some d, decoded := some b }, .ok true) := by
          simp [PStream.body, hdec, hd, e1, hf, hb']
        rw [hyb] at hon
        refine ⟨.decoded w.streams.length, hf ▸ hon.2, hf ▸ hget _ _ ?_⟩
        exact congrArg (fun o => Option.bind o PStream.decoded) hon.1

/-- What a program sees as the body, by the state of the stream. -/
theorem seesBody_iff {m : Overflow} {k : Codecs} {v : StreamWorld} {t : Nat} {x : PStream} (hv : v.streams[t]? = some x) (d : Bytes) :
    Spec.SeesBody m k v t d ↔
      match x.body m k with
      | (y, .ok true) => y.decoded = some d
      | (y, .ok false) => y.decrypted = some d
      | (_, .error _) => False := by
  have hon := on_same (w := v)
    (fun x => ((x.body m k).1, (x.body m k).2.map fun b => StreamAnswer.buffer (if b then .decoded t else .decrypted t))) hv
  have hget : ∀ (q : BufferRef) (v : StreamWorld), (v.step m k (.getData q)).2 = .ok (.data d) ↔ v.contents q = some d := by
    intro q v
    show (match v.contents q with | none => _ | some d => _ : StreamWorld × Res StreamAnswer).2 = _ ↔ _
    cases v.contents q with
    | none => exact ⟨(nomatch ·), (nomatch ·)⟩
    | some z => exact ⟨fun h => by injection h with h; injection h with h; rw [h], fun h => by injection h with h; rw [h]⟩
  have hstep1 : (v.step m k (.getBody t)).1.streams[t]? = some (x.body m k).1 := hon.1
  have hstep2 : (v.step m k (.getBody t)).2 = (x.body m k).2.map fun b => .buffer (if b then .decoded t else .decrypted t) := hon.2
  cases hb : x.body m k with
  | mk y r =>
    rw [hb] at hstep1 hstep2
    have c1 : (v.step m k (.getBody t)).1.contents (.decoded t) = y.decoded := congrArg (fun o => Option.bind o PStream.decoded) hstep1
    have c2 : (v.step m k (.getBody t)).1.contents (.decrypted t) = y.decrypted := congrArg (fun o => Option.bind o PStream.decrypted) hstep1
    constructor
    · rintro ⟨q, h1, h2⟩
      rw [hstep2] at h1
      rw [hget] at h2
      cases r with
      | error e => cases h1
      | ok b =>
        cases b with
        | true => injection h1 with h1; injection h1 with h1; subst h1; exact c1.symm.trans h2
        | false => injection h1 with h1; injection h1 with h1; subst h1; exact c2.symm.trans h2
    · intro h
      cases r with
      | error e => cases h
      | ok b =>
        cases b with
        | true => exact ⟨.decoded t, hstep2, (hget _ _).2 (c1.trans h)⟩
        | false => exact ⟨.decrypted t, hstep2, (hget _ _).2 (c2.trans h)⟩

/-- **C120**, copies: a copy is a new stream; its body, its data and what is written of it are those of the original. -/
theorem C120_copy (m : Overflow) (k : Codecs) (w : StreamWorld) (s : Nat) (hs : s < w.streams.length) :
    (w.step m k (.clone s)).2 = .ok (.stream w.streams.length) ∧
    ((w.step m k (.clone s)).1.step m k (.write w.streams.length)).2 = (w.step m k (.write s)).2 ∧
    (∀ d, Spec.SeesBody m k (w.step m k (.clone s)).1 w.streams.length d ↔ Spec.SeesBody m k w s d) ∧
    ((w.step m k (.clone s)).1.step m k (.getData (.raw w.streams.length))).2 = (w.step m k (.getData (.raw s))).2 := by
  have hx : w.streams[s]? = some w.streams[s] := List.getElem?_eq_getElem hs
  generalize w.streams[s] = x at hx
  have e : w.step m k (.clone s) = ({ w with streams := w.streams ++ [x] }, .ok (.stream w.streams.length)) := by
    show (match w.streams[s]? with | none => _ | some x => _ : StreamWorld × Res StreamAnswer) = _
    rw [hx]
  rw [e]
  have hn : (w.streams ++ [x])[w.streams.length]? = some x := by
    rw [List.getElem?_append_right (Nat.le_refl _), Nat.sub_self]; rfl
  refine ⟨rfl, ?_, fun d => (seesBody_iff hn d).trans (seesBody_iff hx d).symm, ?_⟩
  · show (match (w.streams ++ [x])[w.streams.length]? with | none => _ | some x => _ : StreamWorld × Res StreamAnswer).2 =
      (match w.streams[s]? with | none => _ | some x => _ : StreamWorld × Res StreamAnswer).2
    rw [hn, hx]
  · have h1 : StreamWorld.contents { w with streams := w.streams ++ [x] } (.raw w.streams.length) = some x.raw :=
      congrArg (fun o => Option.map PStream.raw o) hn
    have h2 : w.contents (.raw s) = some x.raw := congrArg (fun o => Option.map PStream.raw o) hx
    show (match StreamWorld.contents { w with streams := w.streams ++ [x] } (.raw w.streams.length) with | none => _ | some d => _ :
      StreamWorld × Res StreamAnswer).2 = (match w.contents (.raw s) with | none => _ | some d => _ : StreamWorld × Res StreamAnswer).2
    rw [h1, h2]

/-- **C120**, other streams: calls about other streams, copies among them, change neither the body of a stream nor what is written of
it. -/
theorem C120_independent (m : Overflow) (k : Codecs) (w : StreamWorld) (s : Nat) (hs : s < w.streams.length)
    (calls : List StreamCall) (hc : ∀ c ∈ calls, Spec.Elsewhere s c) :
    ((w.run m k calls).step m k (.write s)).2 = (w.step m k (.write s)).2 ∧
    ∀ d, Spec.SeesBody m k (w.run m k calls) s d ↔ Spec.SeesBody m k w s d := by
  have hx : w.streams[s]? = some w.streams[s] := List.getElem?_eq_getElem hs
  generalize w.streams[s] = x at hx
  have hrun : ∀ (calls : List StreamCall) (v : StreamWorld), v.streams[s]? = some x → (∀ c ∈ calls, Spec.Elsewhere s c) →
      (v.run m k calls).streams[s]? = some x := by
    intro calls
    induction calls with
    | nil => exact fun v h _ => h
    | cons c cs ih =>
      exact fun v h hc => ih _ (step_elsewhere m k h (hc c (List.mem_cons_self ..))) fun c' h' => hc c' (List.mem_cons_of_mem _ h')
  have hy := hrun calls w hx hc
  generalize w.run m k calls = v at hy
  refine ⟨?_, fun d => (seesBody_iff hy d).trans (seesBody_iff hx d).symm⟩
  show (match v.streams[s]? with | none => _ | some x => _ : StreamWorld × Res StreamAnswer).2 =
    (match w.streams[s]? with | none => _ | some x => _ : StreamWorld × Res StreamAnswer).2
  rw [hx, hy]

/-- A program: a stream is read, its body shown, its filter taken away, a copy is made and gets another body. -/
def sampleStreamCalls : List StreamCall :=
  [.load (some (.name .flate {})) (1 :: b! "abc"), .getBody 0, .setFilter 0 (some .absent), .clone 0, .makeBuffer (b! "new"),
   .setBody 1 (.own 0), .getBodyRaw 1, .setData (.raw 1) (b! "?"), .attach 1]

/-- The hypotheses of C120_body_partial are met, for the stream and for its copy. -/
example : Spec.Settles .wrap toyCodecs (StreamWorld.start.run .wrap toyCodecs (sampleStreamCalls.take 1)) 0 (b! "abc") (.getBody 0) ∧
    (∀ c ∈ sampleStreamCalls.drop 2, ¬ Spec.Rewrites 0 c) ∧
    Spec.Settles .wrap toyCodecs (StreamWorld.start.run .wrap toyCodecs (sampleStreamCalls.take 5)) 1 (b! "new") (.setBody 1 (.own 0)) ∧
    (∀ c ∈ sampleStreamCalls.drop 6, ¬ Spec.Rewrites 1 c) ∧ Spec.Lossless toyCodecs :=
  ⟨.read rfl rfl, by simp [sampleStreamCalls, Spec.Rewrites], .set (.own 0) rfl rfl, by simp [sampleStreamCalls, Spec.Rewrites],
    fun _ => rfl⟩

/-- What is written of both in the end. -/
example : ((StreamWorld.start.run .wrap toyCodecs sampleStreamCalls).step .wrap toyCodecs (.write 0)).2 = .ok (.data (b! "abc")) ∧
    ((StreamWorld.start.run .wrap toyCodecs sampleStreamCalls).step .wrap toyCodecs (.write 1)).2 = .ok (.data (b! "new")) := ⟨rfl, rfl⟩

/-- Histories that leave a stream alone. -/
example : (∀ c ∈ [StreamCall.getBody 0, .clone 0, .setFilter 1 none, .write 0], ¬ Spec.Touches 0 c) ∧
    (∀ c ∈ [StreamCall.clone 0, .setFilter 1 none, .setBody 1 (.decoded 0), .write 0], Spec.Elsewhere 0 c) := by
  simp [Spec.Touches, Spec.Elsewhere]

/-- **C120** is false of bodies that were not asked for: when the filters of a stream from a file are changed, the old data are written
with the new filters, so that, whatever the data are, the body is what the new filters make of them.  Had the program asked for the body
before, the body would have stayed. -/
theorem C120_unread_counterexample (m : Overflow) (k : Codecs) (w : StreamWorld) (f g : Option FilterEntry) (d : Bytes) :
    (((w.step m k (.load f d)).1.step m k (.setFilter w.streams.length g)).1.step m k (.write w.streams.length)).2 = .ok (.data d) := by
  have h0 : ((w.step m k (.load f d)).1).streams[w.streams.length]? = some ⟨f, d, none, none, false, true⟩ := by
    show (w.streams ++ [(⟨f, d, none, none, false, true⟩ : PStream)])[w.streams.length]? = _
    rw [List.getElem?_append_right (Nat.le_refl _), Nat.sub_self]; rfl
  have h1 : ((w.step m k (.load f d)).1.step m k (.setFilter w.streams.length g)).1.streams[w.streams.length]? =
      some ⟨g, d, none, none, true, true⟩ := (on_same _ h0).1
  show (match ((w.step m k (.load f d)).1.step m k (.setFilter w.streams.length g)).1.streams[w.streams.length]? with
    | none => _ | some x => _ : StreamWorld × Res StreamAnswer).2 = _
  rw [h1]
  rfl

/-- Taking away the filter of compressed data that were not asked for: the compressed data become the body. -/
example : Spec.SeesBody .wrap toyCodecs (StreamWorld.start.run .wrap toyCodecs [.load (some (.name .flate {})) (1 :: b! "abc"),
    .setFilter 0 (some .absent)]) 0 (1 :: b! "abc") := ⟨.decoded 0, rfl, rfl⟩

/-- **C120** is false of streams whose filter is the null object: the buffer that is handed out as the body is another one than the body
that is written, so that every change of it is lost. -/
theorem C120_null_counterexample (m : Overflow) (k : Codecs) (d e : Bytes) :
    let w := StreamWorld.start.run m k [.load none d]
    (w.step m k (.getBody 0)).2 = .ok (.buffer (.decrypted 0)) ∧
    ((w.run m k [.getBody 0]).step m k (.setData (.decrypted 0) e)).2 = .ok .done ∧
    Spec.SeesBody m k (w.run m k [.getBody 0, .setData (.decrypted 0) e]) 0 e ∧
    ((w.run m k [.getBody 0, .setData (.decrypted 0) e]).step m k (.write 0)).2 = .ok (.data d) :=
  ⟨rfl, rfl, ⟨.decrypted 0, rfl, rfl⟩, rfl⟩

/-- **C120** is false of programs that change the body they were handed and set it again: a buffer is assigned to itself, which is
undefined. -/
theorem C120_self_counterexample (m : Overflow) (k : Codecs) (w : StreamWorld) (s : Nat) :
    (w.step m k (.setBody s (.decoded s))).2 = .error .ub := by
  show (if BufferRef.decoded s = .decoded s then _ else _ : StreamWorld × Res StreamAnswer).2 = _
  rw [if_pos rfl]

/-- Reading alone can make a document unwritable: a stream with an ASCII85 filter whose dictionary was changed is written with its old
data; but once its body was asked for, writing fails, because the body would have to be encoded. -/
theorem C120_reading_counterexample (m : Overflow) (k : Codecs) (p : PredictorParams) (d b : Bytes) (hd : ascii85Decode m d = .ok b) :
    let f := some (FilterEntry.name .ascii85 p)
    let w := StreamWorld.start.run m k [.load f d, .setFilter 0 f]
    (w.step m k (.write 0)).2 = .ok (.data d) ∧
    ((w.run m k [.getBody 0]).step m k (.write 0)).2 = .error .notSupported := by
  intro f w
  have hw : w = ⟨[⟨f, d, none, none, true, true⟩], []⟩ := rfl
  have hb : PStream.body m k ⟨f, d, none, none, true, true⟩ = (⟨f, d, some d, some b, true, true⟩, .ok true) := by
    have : decodeBody m k (.name .ascii85 p) d = .ok b := hd
    simp [PStream.body, PStream.bodyDecrypted, f, this]
  refine ⟨rfl, ?_⟩
  have hr : w.run m k [.getBody 0] = ⟨[⟨f, d, some d, some b, true, true⟩], []⟩ := by
    show (w.on 0 _).1 = _
    rw [hw]
    show StreamWorld.put ⟨[⟨f, d, none, none, true, true⟩], []⟩ 0 (PStream.body m k ⟨f, d, none, none, true, true⟩).1 = _
    rw [hb]; rfl
  rw [hr]
  rfl

/-- Data as the theorem needs them. -/
example : ascii85Decode .wrap (b! "87cUR~>") = .ok (b! "Hell") := by decide +kernel

end VPdf
