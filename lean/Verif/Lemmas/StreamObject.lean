import Verif.Spec.StreamObject
import Verif.Props.Filters
/- Lemmas on the model of stream objects (C120). -/
namespace VPdf

/-- A call on a stream leaves the others alone. -/
theorem on_other (w : StreamWorld) {s t : Nat} (f : PStream → PStream × Res StreamAnswer) (h : t ≠ s) :
    ((w.on t f).1).streams[s]? = w.streams[s]? := by
  unfold StreamWorld.on
  cases w.streams[t]? with
  | none => rfl
  | some x => exact List.getElem?_set_ne h

/-- A call on a stream. -/
theorem on_same {w : StreamWorld} {s : Nat} {x : PStream} (f : PStream → PStream × Res StreamAnswer) (h : w.streams[s]? = some x) :
    ((w.on s f).1).streams[s]? = some (f x).1 ∧ (w.on s f).2 = (f x).2 := by
  have hl : s < w.streams.length := (List.getElem?_eq_some_iff.mp h).1
  unfold StreamWorld.on
  rw [h]
  exact ⟨by simp [StreamWorld.put, hl], rfl⟩

/-- A stream stays where it is when others are added. -/
theorem append_keeps {l : List PStream} {s : Nat} {x y : PStream} (h : l[s]? = some x) : (l ++ [y])[s]? = some x := by
  rw [List.getElem?_append_left (List.getElem?_eq_some_iff.mp h).1, h]

/-- Calls about other streams leave a stream as it is. -/
theorem step_elsewhere (m : Overflow) (k : Codecs) {w : StreamWorld} {s : Nat} {x : PStream} {c : StreamCall}
    (h : w.streams[s]? = some x) (hc : Spec.Elsewhere s c) : (w.step m k c).1.streams[s]? = some x := by
  obtain ⟨ht, hg, ha⟩ := hc
  cases c with
  | makeBuffer d => exact h
  | create => exact append_keeps h
  | load f d => exact append_keeps h
  | attach t => exact (on_other w _ (fun e => ha (by rw [e]))).trans h
  | setFilter t f => exact (on_other w _ (fun e => ht e)).trans h
  | getBody t => exact (on_other w _ (fun e => hg (by rw [e]))).trans h
  | getBodyRaw t =>
    by_cases e : t = s
    · rw [e]; exact (on_same _ h).1
    · exact (on_other w _ e).trans h
  | setBody t b =>
    have hts : t ≠ s := fun e => ht e
    show (if b = .decoded t then _ else _ : StreamWorld × Res StreamAnswer).1.streams[s]? = _
    by_cases hb : b = .decoded t
    · rw [if_pos hb]; exact h
    · rw [if_neg hb]
      cases w.contents b with
      | none => exact h
      | some d => exact (on_other w _ hts).trans h
  | getData b =>
    show (match w.contents b with | none => _ | some d => _ : StreamWorld × Res StreamAnswer).1.streams[s]? = _
    cases w.contents b <;> exact h
  | setData b d =>
    show (match w.contents b with | none => _ | some _ => _ : StreamWorld × Res StreamAnswer).1.streams[s]? = _
    cases w.contents b with
    | none => exact h
    | some _ =>
      cases b with
      | own i => exact h
      | raw t => exact (on_other w _ (fun e => ht e)).trans h
      | decrypted t => exact (on_other w _ (fun e => ht e)).trans h
      | decoded t => exact (on_other w _ (fun e => ht e)).trans h
  | clone t =>
    show (match w.streams[t]? with | none => _ | some _ => _ : StreamWorld × Res StreamAnswer).1.streams[s]? = _
    cases w.streams[t]? with
    | none => exact h
    | some y => exact append_keeps h
  | write t =>
    show (match w.streams[t]? with | none => _ | some _ => _ : StreamWorld × Res StreamAnswer).1.streams[s]? = _
    cases w.streams[t]? <;> exact h

/-- The decoded body of a stream that was not changed comes from its data. -/
def Genuine (m : Overflow) (k : Codecs) (x : PStream) : Prop :=
  x.dirty = false → (∀ b, x.decrypted = some b → b = x.raw) ∧ ∀ d, x.decoded = some d → decodeEntry m k x.filter x.raw = .ok d

/-- Asking for the decrypted body. -/
theorem bodyDecrypted_cases {x : PStream} {b : Bytes} {y : PStream} (h : x.bodyDecrypted = .ok (b, y)) :
    y = { x with decrypted := some b } ∧ (x.decrypted = some b ∨ x.decrypted = none ∧ b = x.raw ∧ x.hasFile = true) := by
  unfold PStream.bodyDecrypted at h
  cases hd : x.decrypted with
  | some c =>
    rw [hd] at h
    injection h with h
    injection h with h1 h2
    subst h1
    exact ⟨by rw [← h2, ← hd], Or.inl rfl⟩
  | none =>
    rw [hd] at h
    cases hf : x.hasFile with
    | false => rw [hf] at h; cases h
    | true =>
      rw [hf] at h
      injection h with h
      injection h with h1 h2
      subst h1
      exact ⟨h2.symm, Or.inr ⟨rfl, rfl, rfl⟩⟩

/-- The ways in which asking for the body ends. -/
theorem body_cases (m : Overflow) (k : Codecs) (x : PStream) :
    (∃ d, x.decoded = some d ∧ x.body m k = (x, .ok true)) ∨
    (x.decoded = none ∧ ∃ e, x.bodyDecrypted = .error e ∧ x.body m k = (x, .error e)) ∨
    (x.decoded = none ∧ ∃ b, x.bodyDecrypted = .ok (b, { x with decrypted := some b }) ∧
      ((x.filter = none ∧ x.body m k = ({ x with decrypted := some b }, .ok false)) ∨
       (∃ f, x.filter = some f ∧ ∃ e, decodeBody m k f b = .error e ∧ x.body m k = ({ x with decrypted := some b }, .error e)) ∨
       (∃ f, x.filter = some f ∧ ∃ d, decodeBody m k f b = .ok d ∧
          x.body m k = ({ x with decrypted := some b, decoded := some d }, .ok true)))) := by
  cases hd : x.decoded with
  | some d => exact Or.inl ⟨d, rfl, by simp [PStream.body, hd]⟩
  | none =>
    cases hb : x.bodyDecrypted with
    | error e => exact Or.inr (Or.inl ⟨rfl, e, rfl, by simp [PStream.body, hd, hb]⟩)
    | ok p =>
      obtain ⟨b, y⟩ := p
      have hy := (bodyDecrypted_cases hb).1
      subst hy
      refine Or.inr (Or.inr ⟨rfl, b, by rw [hd], ?_⟩)
      cases hf : x.filter with
      | none => exact Or.inl ⟨rfl, by simp [PStream.body, hd, hb, hf]⟩
      | some f =>
        cases he : decodeBody m k f b with
        | error e => exact Or.inr (Or.inl ⟨f, rfl, e, he, by simp [PStream.body, hd, hb, hf, he]⟩)
        | ok d => exact Or.inr (Or.inr ⟨f, rfl, d, he, by simp [PStream.body, hd, hb, hf, he]⟩)

/-- Asking for the body keeps streams genuine. -/
theorem genuine_body {m : Overflow} {k : Codecs} {x : PStream} (h : Genuine m k x) : Genuine m k (x.body m k).1 := by
  have key : x.decoded = none → ∀ b, x.bodyDecrypted = .ok (b, { x with decrypted := some b }) → x.dirty = false → b = x.raw := by
    intro _ b hb hd
    rcases (bodyDecrypted_cases hb).2 with h1 | ⟨_, h1, _⟩
    · exact (h hd).1 b h1
    · exact h1
  rcases body_cases m k x with ⟨d, _, e⟩ | ⟨_, _, _, e⟩ | ⟨hn, b, hb, ⟨_, e⟩ | ⟨_, _, _, _, e⟩ | ⟨f, hf, d, hd, e⟩⟩
  · rw [e]; exact h
  · rw [e]; exact h
  · rw [e]
    intro hc
    exact ⟨fun c hc' => by injection hc' with hc'; rw [← hc']; exact key hn b hb hc, fun d hd => by rw [hn] at hd; cases hd⟩
  · rw [e]
    intro hc
    exact ⟨fun c hc' => by injection hc' with hc'; rw [← hc']; exact key hn b hb hc, fun d hd => by rw [hn] at hd; cases hd⟩
  · rw [e]
    intro hc
    have hraw := key hn b hb hc
    refine ⟨fun c hc' => by injection hc' with hc'; rw [← hc']; exact hraw, fun d' hd' => ?_⟩
    injection hd' with hd'
    subst hd'
    show decodeEntry m k x.filter x.raw = .ok d
    rw [hf, ← hraw]
    exact hd

/-- All streams are genuine. -/
def AllGenuine (m : Overflow) (k : Codecs) (w : StreamWorld) : Prop :=
  ∀ (s : Nat) (x : PStream), w.streams[s]? = some x → Genuine m k x

/-- New streams are genuine. -/
theorem genuine_fresh (m : Overflow) (k : Codecs) (f : Option FilterEntry) (d : Bytes) (b c : Bool) :
    Genuine m k ⟨f, d, none, none, b, c⟩ := fun _ => ⟨(fun _ h => nomatch h), (fun _ h => nomatch h)⟩

/-- Adding a genuine stream. -/
theorem allGenuine_append {m : Overflow} {k : Codecs} {w : StreamWorld} (h : AllGenuine m k w) {y : PStream} (hy : Genuine m k y) :
    AllGenuine m k { w with streams := w.streams ++ [y] } := by
  intro s x hx
  have hx : (w.streams ++ [y])[s]? = some x := hx
  rw [List.getElem?_append] at hx
  split at hx
  · exact h s x hx
  · obtain ⟨hl, e⟩ := List.getElem?_eq_some_iff.mp hx
    have : x ∈ [y] := List.mem_of_getElem? hx
    rw [List.mem_singleton] at this
    rw [this]; exact hy

/-- A call on one stream. -/
theorem allGenuine_on {m : Overflow} {k : Codecs} {w : StreamWorld} (h : AllGenuine m k w) (s : Nat)
    {f : PStream → PStream × Res StreamAnswer} (hf : ∀ x, Genuine m k x → Genuine m k (f x).1) : AllGenuine m k (w.on s f).1 := by
  intro t x hx
  by_cases e : s = t
  · subst e
    cases hs : w.streams[s]? with
    | none =>
      rw [show w.on s f = (w, .error .invalidArgument) from by unfold StreamWorld.on; rw [hs]] at hx
      exact h s x hx
    | some y =>
      rw [(on_same f hs).1] at hx
      injection hx with hx
      rw [← hx]
      exact hf y (h s y hs)
  · rw [on_other w f e] at hx
    exact h t x hx

/-- All calls keep the streams genuine. -/
theorem allGenuine_step {m : Overflow} {k : Codecs} {w : StreamWorld} (h : AllGenuine m k w) (c : StreamCall) :
    AllGenuine m k (w.step m k c).1 := by
  have hdirty : ∀ y : PStream, y.dirty = true → Genuine m k y := fun y hy hn => by rw [hy] at hn; cases hn
  cases c with
  | makeBuffer d => exact h
  | create => exact allGenuine_append h (genuine_fresh m k _ _ _ _)
  | load f d => exact allGenuine_append h (genuine_fresh m k _ _ _ _)
  | attach t => exact allGenuine_on h t fun x hx => hx
  | setFilter t f => exact allGenuine_on h t fun x _ => hdirty _ rfl
  | getBody t => exact allGenuine_on h t fun x hx => genuine_body hx
  | getBodyRaw t => exact allGenuine_on h t fun x hx => hx
  | setBody t b =>
    show AllGenuine m k (if b = .decoded t then _ else _ : StreamWorld × Res StreamAnswer).1
    by_cases hb : b = .decoded t
    · rw [if_pos hb]; exact h
    · rw [if_neg hb]
      cases w.contents b with
      | none => exact h
      | some d => exact allGenuine_on h t fun x _ => hdirty _ rfl
  | getData b =>
    show AllGenuine m k (match w.contents b with | none => _ | some d => _ : StreamWorld × Res StreamAnswer).1
    cases w.contents b <;> exact h
  | setData b d =>
    show AllGenuine m k (match w.contents b with | none => _ | some _ => _ : StreamWorld × Res StreamAnswer).1
    cases w.contents b with
    | none => exact h
    | some _ =>
      cases b with
      | own i => exact h
      | raw t => exact allGenuine_on h t fun x _ => hdirty _ rfl
      | decrypted t => exact allGenuine_on h t fun x _ => hdirty _ rfl
      | decoded t => exact allGenuine_on h t fun x _ => hdirty _ rfl
  | clone t =>
    show AllGenuine m k (match w.streams[t]? with | none => _ | some _ => _ : StreamWorld × Res StreamAnswer).1
    cases ht : w.streams[t]? with
    | none => exact h
    | some y => exact allGenuine_append h (h t y ht)
  | write t =>
    show AllGenuine m k (match w.streams[t]? with | none => _ | some _ => _ : StreamWorld × Res StreamAnswer).1
    cases w.streams[t]? <;> exact h

/-- All histories keep the streams genuine. -/
theorem allGenuine_run {m : Overflow} {k : Codecs} (calls : List StreamCall) : ∀ {w : StreamWorld}, AllGenuine m k w →
    AllGenuine m k (w.run m k calls) := by
  induction calls with
  | nil => exact fun h => h
  | cons c cs ih => exact fun h => ih (allGenuine_step h c)

/-- The start of a program. -/
theorem allGenuine_start (m : Overflow) (k : Codecs) : AllGenuine m k .start := fun s x h => by
  have h : ([] : List PStream)[s]? = some x := h
  rw [List.getElem?_nil] at h
  cases h

/-- A known body stays unless a call gives the stream another one. -/
theorem settled_step {m : Overflow} {k : Codecs} {w : StreamWorld} {s : Nat} {d : Bytes} {c : StreamCall}
    (h : (w.streams[s]?).bind PStream.decoded = some d) (hc : ¬ Spec.Rewrites s c) :
    ((w.step m k c).1.streams[s]?).bind PStream.decoded = some d := by
  cases hs : w.streams[s]? with
  | none => rw [hs] at h; cases h
  | some x =>
    rw [hs] at h
    have hx : x.decoded = some d := h
    by_cases he : Spec.Elsewhere s c
    · rw [step_elsewhere m k hs he]; exact hx
    · have hon : ∀ f : PStream → PStream × Res StreamAnswer, (f x).1.decoded = some d →
          (((w.on s f).1).streams[s]?).bind PStream.decoded = some d := fun f hf => by rw [(on_same f hs).1]; exact hf
      have hsame : (w.streams[s]?).bind PStream.decoded = some d := by rw [hs]; exact hx
      cases c with
      | attach t =>
        by_cases e : t = s
        · subst e; exact hon _ hx
        · exact absurd ⟨fun z => z, (nomatch ·), fun z => e (by injection z)⟩ he
      | getBody t =>
        by_cases e : t = s
        · subst e
          refine hon _ ?_
          show (x.body m k).1.decoded = some d
          simp [PStream.body, hx]
        · exact absurd ⟨fun z => z, fun z => e (by injection z), (nomatch ·)⟩ he
      | setFilter t f =>
        by_cases e : t = s
        · subst e; exact hon _ hx
        · exact absurd ⟨fun z => e z, (nomatch ·), (nomatch ·)⟩ he
      | setBody t b =>
        by_cases e : t = s
        · exact absurd e hc
        · exact absurd ⟨fun z => e z, (nomatch ·), (nomatch ·)⟩ he
      | setData b v =>
        have hin : ∀ t, (∀ e : t = s, (((w.on t fun x => (({ x with raw := v, dirty := true } : PStream), .ok .done)).1).streams[s]?).bind
            PStream.decoded = some d) := fun t e => by subst e; exact hon _ hx
        show ((match w.contents b with | none => _ | some _ => _ : StreamWorld × Res StreamAnswer).1.streams[s]?).bind _ = _
        cases w.contents b with
        | none => exact hsame
        | some _ =>
          cases b with
          | own i => exact hsame
          | raw t =>
            by_cases e : t = s
            · subst e; exact hon _ hx
            · exact absurd ⟨fun z => e z, (nomatch ·), (nomatch ·)⟩ he
          | decrypted t =>
            by_cases e : t = s
            · subst e; exact hon _ hx
            · exact absurd ⟨fun z => e z, (nomatch ·), (nomatch ·)⟩ he
          | decoded t =>
            by_cases e : t = s
            · exact absurd e hc
            · exact absurd ⟨fun z => e z, (nomatch ·), (nomatch ·)⟩ he
      | makeBuffer d => exact absurd ⟨fun z => z, (nomatch ·), (nomatch ·)⟩ he
      | create => exact absurd ⟨fun z => z, (nomatch ·), (nomatch ·)⟩ he
      | load f d => exact absurd ⟨fun z => z, (nomatch ·), (nomatch ·)⟩ he
      | getBodyRaw t => exact absurd ⟨fun z => z, (nomatch ·), (nomatch ·)⟩ he
      | getData b => exact absurd ⟨fun z => z, (nomatch ·), (nomatch ·)⟩ he
      | clone t => exact absurd ⟨fun z => z, (nomatch ·), (nomatch ·)⟩ he
      | write t => exact absurd ⟨fun z => z, (nomatch ·), (nomatch ·)⟩ he

/-- A known body stays over histories. -/
theorem settled_run {m : Overflow} {k : Codecs} {s : Nat} {d : Bytes} (calls : List StreamCall) : ∀ {w : StreamWorld},
    (w.streams[s]?).bind PStream.decoded = some d → (∀ c ∈ calls, ¬ Spec.Rewrites s c) →
    ((w.run m k calls).streams[s]?).bind PStream.decoded = some d := by
  induction calls with
  | nil => exact fun h _ => h
  | cons c cs ih =>
    exact fun h hc => ih (settled_step h (hc c (List.mem_cons_self ..))) fun c' h' => hc c' (List.mem_cons_of_mem _ h')

/-- Encoding with Flate and decoding. -/
theorem flateOnly_decodes {m : Overflow} {k : Codecs} (hk : Spec.Lossless k) {f : Option FilterEntry} (hf : Spec.FlateOnly f)
    {d v : Bytes} (h : encodeEntry k f d = .ok v) : decodeEntry m k f v = .ok d := by
  cases f with
  | none => injection h with h; rw [← h]; rfl
  | some e =>
    refine C12_encode_decode_partial m k hk e d v ?_ h
    cases e with
    | absent => trivial
    | name f p => exact hf
    | array fs => exact hf

/-- Flate always encodes. -/
theorem flateOnly_encodes (k : Codecs) {f : Option FilterEntry} (hf : Spec.FlateOnly f) (d : Bytes) :
    ∃ v, encodeEntry k f d = .ok v := by
  cases f with
  | none => exact ⟨d, rfl⟩
  | some e =>
    cases e with
    | absent => exact ⟨d, rfl⟩
    | name f p =>
      obtain ⟨h, _⟩ := hf
      subst h
      exact ⟨k.deflate d, rfl⟩
    | array fs =>
      have hf : ∀ x ∈ fs, x.1 = .flate ∧ x.2.predictor = 1 := hf
      show ∃ v, encodeChain k fs d = .ok v
      induction fs generalizing d with
      | nil => exact ⟨d, rfl⟩
      | cons x xs ih =>
        obtain ⟨f, p⟩ := x
        have h := (hf (f, p) (List.mem_cons_self ..)).1
        have h : f = .flate := h
        subst h
        have hx : ∀ y ∈ xs, y.1 = .flate ∧ y.2.predictor = 1 := fun y hy => hf y (List.mem_cons_of_mem _ hy)
        exact ih (k.deflate d) hx hx

end VPdf
