import Verif.Spec.Images
import Verif.Lemmas.ParseTerm
import Mathlib.Data.Nat.Find
import Mathlib.Tactic.ByContra
/-
  C107: images.
-/
namespace VPdf
open Spec

/-! ### Bytes for libjpeg -/

theorem jpegRun_spec (s : JpegSource) (rs : List JpegRequest) :
    ((∀ q ∈ asked s.next rs, q < s.data.length) → ∃ bs, jpegRun s rs = .ok bs ∧ bs.map some = (asked s.next rs).map (s.data[·]?)) ∧
    ((∃ q ∈ asked s.next rs, s.data.length ≤ q) → jpegRun s rs = .error .ub) := by
  induction rs generalizing s with
  | nil => exact ⟨fun _ => ⟨[], rfl, rfl⟩, by rintro ⟨q, h, _⟩; cases h⟩
  | cons r rs ih =>
    cases r with
    | skip n =>
      have := ih { s with next := s.next + n, avail := (s.avail + (18446744073709551616 - n % 18446744073709551616)) % 18446744073709551616 }
      constructor
      · intro h
        obtain ⟨bs, h1, h2⟩ := this.1 h
        exact ⟨bs, by rw [jpegRun, jpegRequest, ok_bind]; dsimp only; rw [h1]; rfl, h2⟩
      · intro h
        rw [jpegRun, jpegRequest, ok_bind]; dsimp only; rw [this.2 h]; rfl
    | byte =>
      rw [jpegRun, jpegRequest]
      by_cases hn : s.next < s.data.length
      · rw [List.getElem?_eq_getElem hn]
        dsimp only
        rw [ok_bind]
        dsimp only
        have := ih { s with next := s.next + 1, avail := (s.avail + 18446744073709551615) % 18446744073709551616 }
        constructor
        · intro h
          obtain ⟨bs, h1, h2⟩ := this.1 fun q hq => h q (List.mem_cons_of_mem _ hq)
          refine ⟨s.data[s.next] :: bs, by rw [h1]; rfl, ?_⟩
          dsimp only at h2
          simp only [asked, List.map_cons, h2, List.getElem?_eq_getElem hn]
        · rintro ⟨q, hq, hl⟩
          rcases List.mem_cons.mp hq with rfl | hq
          · omega
          · rw [this.2 ⟨q, hq, hl⟩]; rfl
      · constructor
        · intro h
          exact absurd (h s.next List.mem_cons_self) hn
        · intro _
          rw [List.getElem?_eq_none (by omega)]; rfl

/-- **C107 (partial): libjpeg gets the bytes of the data**, as long as it asks for bytes of the data.  Missing: other requests (below). -/
theorem C107_source_partial (data : Bytes) (rs : List JpegRequest) (h : ∀ q ∈ asked 0 rs, q < data.length) :
    ∃ bs, jpegRun (jpegSource data) rs = .ok bs ∧ bs.map some = (asked 0 rs).map (data[·]?) :=
  (jpegRun_spec (jpegSource data) rs).1 h

/-- **C107 is false of data that end too early.**  Whenever libjpeg asks for a byte behind the data, by taking bytes up to there or because
the data say that more bytes are to be skipped than there are, memory behind the data is read. -/
theorem C107_source_counterexample (data : Bytes) (rs : List JpegRequest) (h : ∃ q ∈ asked 0 rs, data.length ≤ q) :
    jpegRun (jpegSource data) rs = .error .ub :=
  (jpegRun_spec (jpegSource data) rs).2 h

/-! ### Bytes from libjpeg -/

/-- What holds between two bytes. -/
structure TargetOk (size : Nat) (t : JpegTarget) (done : Bytes) : Prop where
  length : t.buffer.length = size
  room : t.next + t.free = size
  free : 0 < t.free
  text : t.stream ++ t.buffer.take t.next = done

theorem jpegPut_ok {size : Nat} {t : JpegTarget} {done : Bytes} (h : TargetOk size t done) (b : Byte) : TargetOk size (jpegPut t b) (done ++ [b]) := by
  obtain ⟨h1, h2, h3, h4⟩ := h
  have hn : t.next < t.buffer.length := by omega
  have key : (t.buffer.set t.next b).take (t.next + 1) = t.buffer.take t.next ++ [b] := by
    rw [List.take_add_one, List.take_set, List.set_eq_of_length_le (by rw [List.length_take]; omega), List.getElem?_set_self hn]
    rfl
  unfold jpegPut
  dsimp only
  split
  · rename_i hf
    refine ⟨by simp [jpegEmpty, h1], by simp [jpegEmpty, h1], by simp only [jpegEmpty, List.length_set]; omega, ?_⟩
    have e : t.next + 1 = (t.buffer.set t.next b).length := by rw [List.length_set]; omega
    simp only [jpegEmpty, List.take_zero, List.append_nil]
    rw [e, List.take_length] at key
    rw [key, ← h4, List.append_assoc]
  · rename_i hf
    refine ⟨by simp [h1], by dsimp only; omega, by dsimp only; omega, ?_⟩
    dsimp only
    rw [key, ← h4, List.append_assoc]

theorem jpegPut_all {size : Nat} {t : JpegTarget} {done : Bytes} (h : TargetOk size t done) (bs : Bytes) :
    TargetOk size (bs.foldl jpegPut t) (done ++ bs) := by
  induction bs generalizing t done with
  | nil => rw [List.append_nil]; exact h
  | cons b bs ih =>
    have := ih (jpegPut_ok h b)
    rw [List.append_assoc] at this
    exact this

/-- **C107: what libjpeg writes is the body**, byte for byte, whatever and how much it is. -/
theorem C107_target (bs : Bytes) : jpegWrite bs = bs := by
  have h0 : TargetOk 4096 (jpegInit 4096) [] := ⟨List.length_replicate, rfl, by decide, rfl⟩
  obtain ⟨h1, h2, h3, h4⟩ := jpegPut_all h0 bs
  unfold jpegWrite jpegTerm
  have : (bs.foldl jpegPut (jpegInit 4096)).buffer.length - (bs.foldl jpegPut (jpegInit 4096)).free = (bs.foldl jpegPut (jpegInit 4096)).next := by omega
  rw [this, h4, List.nil_append]

/-! ### Loops -/

theorem forLoop_ok {σ : Type} (f : Nat → σ → Res σ) (P : Nat → σ → Prop) (start n : Nat) (s : σ)
    (h : ∀ i s, start ≤ i → i < start + n → P i s → ∃ s', f i s = .ok s' ∧ P (i + 1) s') (h0 : P start s) :
    ∃ s', forLoop f start n s = .ok s' ∧ P (start + n) s' := by
  induction n generalizing start s with
  | zero => exact ⟨s, rfl, h0⟩
  | succ n ih =>
    obtain ⟨s', h1, h2⟩ := h start s (Nat.le_refl _) (by omega) h0
    obtain ⟨s'', h3, h4⟩ := ih (start + 1) s' (fun i s a b => h i s (by omega) (by omega)) h2
    refine ⟨s'', ?_, by rwa [show start + (n + 1) = start + 1 + n by omega]⟩
    rw [forLoop, h1, ok_bind, h3]

theorem forLoop_append {σ : Type} (f : Nat → σ → Res σ) (start m n : Nat) (s : σ) :
    forLoop f start (m + n) s = forLoop f start m s >>= forLoop f (start + m) n := by
  induction m generalizing start s with
  | zero => rw [Nat.zero_add, Nat.add_zero]; rfl
  | succ m ih =>
    rw [show m + 1 + n = (m + n) + 1 by omega, forLoop, forLoop]
    cases f start s with
    | error e => rfl
    | ok s' =>
      rw [ok_bind, ok_bind, ih, show start + (m + 1) = start + 1 + m by omega]

theorem forLoop_congr {σ : Type} (f g : Nat → σ → Res σ) (start n : Nat) (s : σ) (h : ∀ i s, start ≤ i → i < start + n → f i s = g i s) :
    forLoop f start n s = forLoop g start n s := by
  induction n generalizing start s with
  | zero => rfl
  | succ n ih =>
    rw [forLoop, forLoop, h start s (Nat.le_refl _) (by omega)]
    cases g start s with
    | error e => rfl
    | ok s' => rw [ok_bind, ok_bind]; exact ih (start + 1) s' fun i s a b => h i s (by omega) (by omega)

theorem forLoop_shift {σ : Type} (f : Nat → σ → Res σ) (a start n : Nat) (s : σ) :
    forLoop (fun b => f (a + b)) start n s = forLoop f (a + start) n s := by
  induction n generalizing start s with
  | zero => rfl
  | succ n ih =>
    rw [forLoop, forLoop]
    cases f (a + start) s with
    | error e => rfl
    | ok s' => rw [ok_bind, ok_bind, ih]; rfl

theorem forLoop_flat {σ : Type} (f : Nat → σ → Res σ) (B start A : Nat) (s : σ) :
    forLoop (fun a => forLoop (fun b => f (a * B + b)) 0 B) start A s = forLoop f (start * B) (A * B) s := by
  induction A generalizing start s with
  | zero => rw [Nat.zero_mul]; rfl
  | succ A ih =>
    rw [forLoop, forLoop_shift f (start * B) 0 B s, show (A + 1) * B = B + A * B by rw [Nat.succ_mul]; omega, forLoop_append]
    rw [Nat.add_zero]
    cases forLoop f (start * B) B s with
    | error e => rfl
    | ok s' => rw [ok_bind, ok_bind, ih, Nat.succ_mul]

/-! ### Rows of libjpeg -/

theorem copyFlat (n width : Nat) (row buf : Bytes) (hr : row.length = width * n) (hb : buf.length = width * n) :
    forLoop (copyPixel n row) 0 width buf = .ok row := by
  have e := forLoop_flat (fun k buf => do
    let b ← rowItem row k
    putItem buf k b) n 0 width buf
  have e' : forLoop (copyPixel n row) 0 width buf = forLoop (fun k buf => do
    let b ← rowItem row k
    putItem buf k b) (0 * n) (width * n) buf := e
  rw [e', Nat.zero_mul]
  obtain ⟨s', h1, h2, h3⟩ := forLoop_ok (fun k buf => do
    let b ← rowItem row k
    putItem buf k b) (fun k (s : Bytes) => s.length = width * n ∧ s.take k = row.take k) 0 (width * n) buf (by
      rintro i s _ hi ⟨h1, h2⟩
      rw [Nat.zero_add] at hi
      have hi' : i < row.length := by omega
      have hi'' : i < s.length := by omega
      refine ⟨s.set i row[i], ?_, by rw [List.length_set]; exact h1, ?_⟩
      · simp only [rowItem, List.getElem?_eq_getElem hi', ok_bind, putItem, if_pos hi'']
      · rw [List.take_add_one, List.take_set, List.set_eq_of_length_le (by rw [List.length_take]; omega), List.getElem?_set_self hi'',
          List.take_add_one, List.getElem?_eq_getElem hi', h2]) ⟨hb, by simp⟩
  rw [h1]
  rw [Nat.zero_add] at h3
  rw [← List.take_length (l := s'), h2, h3, ← hr, List.take_length]

theorem dctRow_ok (n width : Nat) (hn : n = 1 ∨ n = 3 ∨ n = 4) (row buf : Bytes) (hr : row.length = width * n) (hb : buf.length = width * n) :
    dctRow n width row buf = .ok row := by
  unfold dctRow
  rcases hn with rfl | rfl | rfl
  · rw [if_neg (by decide), if_neg (by decide), if_pos rfl, if_pos (by omega), List.take_of_length_le (by omega),
      List.drop_of_length_le (by omega), List.append_nil]
  · rw [if_neg (by decide), if_pos rfl]; exact copyFlat 3 width row buf hr hb
  · rw [if_pos rfl]; exact copyFlat 4 width row buf hr hb

/-- **C107 (partial): the body of an image with one, three or four components** is its rows, one after the other.  Missing: other numbers
of components (below). -/
theorem C107_rows_partial (n width : Nat) (rows : List Bytes) (hn : n = 1 ∨ n = 3 ∨ n = 4) (hw : width * n < 2 ^ 32)
    (hr : ∀ row ∈ rows, row.length = width * n) : dctBody n width rows = .ok rows.flatten := by
  unfold dctBody
  rw [if_pos (by simpa using hw)]
  have key : ∀ (rows : List Bytes) (buf : Bytes), (∀ row ∈ rows, row.length = width * n) → buf.length = width * n →
      dctRows n width rows buf = .ok rows.flatten := by
    intro rows
    induction rows with
    | nil => intro buf _ _; rfl
    | cons row rows ih =>
      intro buf hr hb
      have h1 := hr row List.mem_cons_self
      rw [dctRows, dctRow_ok n width hn row buf h1 hb, ok_bind, ih row (fun r hm => hr r (List.mem_cons_of_mem _ hm)) h1]
      rfl
  exact key rows _ hr List.length_replicate

/-- **C107 is false of images with another number of components.**  All such images are decoded to zeros (without assertions). -/
theorem C107_rows_counterexample (n width : Nat) (rows : List Bytes) (hn : n ≠ 1 ∧ n ≠ 3 ∧ n ≠ 4) (hw : width * n < 2 ^ 32) :
    dctBody n width rows = .ok (List.replicate (rows.length * (width * n)) 0) := by
  unfold dctBody
  rw [if_pos (by simpa using hw)]
  generalize width * n = k
  induction rows with
  | nil => rw [List.length_nil, Nat.zero_mul]; rfl
  | cons row rows ih =>
    rw [dctRows, dctRow, if_neg hn.2.2, if_neg hn.2.1, if_neg hn.1, ok_bind, ih, ok_bind, List.replicate_append_replicate, List.length_cons,
      Nat.succ_mul, Nat.add_comm k]

/-! ### Samples of OpenJPEG -/

/-- The innermost loop with one index for all the samples. -/
def flatSample (i : JpxImage) (k : Nat) (result : Bytes) : Res Bytes :=
  match i.comps[k % i.comps.length]? with
  | none => .error .ub
  | some comp =>
    match comp.data[w32 (k / i.comps.length)]? with
    | none => .error .ub
    | some v => if 0 ≤ v ∧ v ≤ 255 then putItem result (w32 k) (UInt8.ofNat v.toNat) else .error .conversion

theorem jpxPixels_flat (i : JpxImage) :
    jpxPixels i = forLoop (flatSample i) 0 (i.x1 * i.y1 * i.comps.length) (List.replicate (jpxSize i) 0) := by
  have e1 : ∀ y x c r, c < i.comps.length → jpxSample i y x c r = flatSample i ((y * i.x1 + x) * i.comps.length + c) r := by
    intro y x c r hc
    unfold jpxSample flatSample
    have h1 : ((y * i.x1 + x) * i.comps.length + c) % i.comps.length = c := by
      rw [Nat.mul_comm, Nat.mul_add_mod, Nat.mod_eq_of_lt hc]
    have h2 : ((y * i.x1 + x) * i.comps.length + c) / i.comps.length = y * i.x1 + x := by
      rw [Nat.mul_comm, Nat.mul_add_div (by omega), Nat.div_eq_of_lt hc, Nat.add_zero]
    have h3 : w32 (w32 (y * i.x1) + x) = w32 (y * i.x1 + x) := by unfold w32; rw [Nat.mod_add_mod]
    have h4 : w32 (w32 (w32 (y * i.x1 + x) * i.comps.length) + c) = w32 ((y * i.x1 + x) * i.comps.length + c) := by
      unfold w32; rw [Nat.mod_add_mod, Nat.add_mod, Nat.mod_mul_mod, ← Nat.add_mod]
    rw [h1, h2]
    dsimp only
    rw [h3, h4]
    rfl
  have e2 : jpxPixels i = forLoop (fun y => forLoop (fun x => (fun p => forLoop (fun c => flatSample i (p * i.comps.length + c)) 0 i.comps.length)
      (y * i.x1 + x)) 0 i.x1) 0 i.y1 (List.replicate (jpxSize i) 0) := by
    unfold jpxPixels
    refine forLoop_congr _ _ _ _ _ fun y s _ _ => forLoop_congr _ _ _ _ _ fun x s _ _ => forLoop_congr _ _ _ _ _ fun c s _ hc => ?_
    exact e1 y x c s (by omega)
  rw [e2, forLoop_flat (fun p => forLoop (fun c => flatSample i (p * i.comps.length + c)) 0 i.comps.length) i.x1 0 i.y1,
    forLoop_flat (flatSample i) i.comps.length, Nat.zero_mul, Nat.zero_mul, Nat.mul_comm i.y1]

/-- The sample with this index. -/
def sampleAt (i : JpxImage) (k : Nat) : Option Int := (i.comps[k % i.comps.length]?).bind fun c => c.data[k / i.comps.length]?

/-- The sample is there, has eight bits, and there is room for it. -/
def GoodAt (i : JpxImage) (k : Nat) : Prop := k < jpxSize i ∧ ∃ v, sampleAt i k = some v ∧ 0 ≤ v ∧ v ≤ 255

theorem jpxSize_lt (i : JpxImage) : jpxSize i < 4294967296 := Nat.mod_lt _ (by decide)

theorem flatSample_good (i : JpxImage) (k : Nat) (r : Bytes) (hk : GoodAt i k) (hr : r.length = jpxSize i) :
    ∃ v, sampleAt i k = some v ∧ flatSample i k r = .ok (r.set k (UInt8.ofNat v.toNat)) := by
  obtain ⟨h1, v, h2, h3⟩ := hk
  refine ⟨v, h2, ?_⟩
  have hs := jpxSize_lt i
  have e1 : w32 k = k := Nat.mod_eq_of_lt (by omega)
  have e2 : w32 (k / i.comps.length) = k / i.comps.length := Nat.mod_eq_of_lt (by have := Nat.div_le_self k i.comps.length; omega)
  unfold sampleAt at h2
  rw [Option.bind_eq_some_iff] at h2
  obtain ⟨c, hc, hv⟩ := h2
  unfold flatSample
  rw [hc]
  dsimp only
  rw [e2, hv]
  dsimp only
  rw [if_pos h3, e1, putItem, if_pos (by omega)]

theorem flat_upTo (i : JpxImage) (K : Nat) (h : ∀ k < K, GoodAt i k) :
    ∃ r, forLoop (flatSample i) 0 K (List.replicate (jpxSize i) 0) = .ok r ∧ r.length = jpxSize i ∧
      ∀ k < K, ∃ v, sampleAt i k = some v ∧ r[k]? = some (UInt8.ofNat v.toNat) := by
  obtain ⟨r, h1, h2, h3⟩ := forLoop_ok (flatSample i) (fun K r => r.length = jpxSize i ∧
      ∀ k < K, ∃ v, sampleAt i k = some v ∧ r[k]? = some (UInt8.ofNat v.toNat)) 0 K (List.replicate (jpxSize i) 0) (by
    rintro k r _ hk ⟨h1, h2⟩
    rw [Nat.zero_add] at hk
    obtain ⟨v, hv, hf⟩ := flatSample_good i k r (h k hk) h1
    refine ⟨_, hf, by rw [List.length_set]; exact h1, fun j hj => ?_⟩
    by_cases hjk : j = k
    · subst hjk
      exact ⟨v, hv, List.getElem?_set_self (by rw [h1]; exact (h j hk).1)⟩
    · obtain ⟨v', a, b⟩ := h2 j (by omega)
      exact ⟨v', a, by rw [List.getElem?_set_ne (by omega), b]⟩) ⟨List.length_replicate, fun k hk => absurd hk (by omega)⟩
  rw [Nat.zero_add] at h3
  exact ⟨r, h1, h2, h3⟩

theorem flat_bad (i : JpxImage) (K N : Nat) (h : ∀ k < K, GoodAt i k) (hN : K < N) :
    (sampleAt i K = none → forLoop (flatSample i) 0 N (List.replicate (jpxSize i) 0) = .error .ub) ∧
    (∀ v, sampleAt i K = some v → 0 ≤ v → v ≤ 255 → jpxSize i ≤ K →
      forLoop (flatSample i) 0 N (List.replicate (jpxSize i) 0) = .error .ub) ∧
    (∀ v, sampleAt i K = some v → ¬ (0 ≤ v ∧ v ≤ 255) → forLoop (flatSample i) 0 N (List.replicate (jpxSize i) 0) = .error .conversion) := by
  obtain ⟨r, h1, h2, h3⟩ := flat_upTo i K h
  have hs := jpxSize_lt i
  have hK : K < 4294967296 := by
    by_cases h0 : K = 0
    · omega
    · have := (h (K - 1) (by omega)).1; omega
  have e1 : w32 K = K := Nat.mod_eq_of_lt hK
  have e2 : w32 (K / i.comps.length) = K / i.comps.length := Nat.mod_eq_of_lt (by have := Nat.div_le_self K i.comps.length; omega)
  have key : ∀ e, flatSample i K r = .error e → forLoop (flatSample i) 0 N (List.replicate (jpxSize i) 0) = .error e := by
    intro e he
    rw [show N = K + ((N - K - 1) + 1) by omega, forLoop_append, h1, ok_bind, Nat.zero_add, forLoop, he]; rfl
  refine ⟨fun hn => key _ ?_, fun v hv h0 h255 hl => key _ ?_, fun v hv hb => key _ ?_⟩
  · unfold flatSample
    unfold sampleAt at hn
    cases hc : i.comps[K % i.comps.length]? with
    | none => rfl
    | some c =>
      rw [hc] at hn
      dsimp only
      rw [e2]
      have hn' : c.data[K / i.comps.length]? = none := hn
      rw [hn']
  · unfold flatSample
    unfold sampleAt at hv
    rw [Option.bind_eq_some_iff] at hv
    obtain ⟨c, hc, hv⟩ := hv
    rw [hc]; dsimp only
    rw [e2, hv]; dsimp only
    rw [if_pos ⟨h0, h255⟩, e1, putItem, if_neg (by omega)]
  · unfold flatSample
    unfold sampleAt at hv
    rw [Option.bind_eq_some_iff] at hv
    obtain ⟨c, hc, hv⟩ := hv
    rw [hc]; dsimp only
    rw [e2, hv]; dsimp only
    rw [if_neg hb]

theorem sampleAt_mem {i : JpxImage} {k : Nat} {v : Int} (h : sampleAt i k = some v) : ∃ c ∈ i.comps, v ∈ c.data := by
  unfold sampleAt at h
  rw [Option.bind_eq_some_iff] at h
  obtain ⟨c, hc, hv⟩ := h
  exact ⟨c, List.mem_of_getElem? hc, List.mem_of_getElem? hv⟩

theorem sampleAt_full {i : JpxImage} (hf : FullSize i) {k : Nat} (hk : k < i.x1 * i.y1 * i.comps.length) : ∃ v, sampleAt i k = some v := by
  have hn : 0 < i.comps.length := by
    rcases Nat.eq_zero_or_pos i.comps.length with h | h
    · rw [h, Nat.mul_zero] at hk; omega
    · exact h
  have h1 : k % i.comps.length < i.comps.length := Nat.mod_lt _ hn
  have h2 : k / i.comps.length < i.x1 * i.y1 := by rw [Nat.div_lt_iff_lt_mul hn]; exact hk
  unfold sampleAt
  rw [List.getElem?_eq_getElem h1, Option.bind_some]
  have := hf _ (List.getElem_mem h1)
  exact ⟨_, List.getElem?_eq_getElem (by omega)⟩

theorem jpxSize_small {i : JpxImage} (h : i.x1 * i.y1 * i.comps.length < 2 ^ 32) : jpxSize i = i.x1 * i.y1 * i.comps.length := by
  unfold jpxSize w32
  rw [Nat.mod_mul_mod]
  exact Nat.mod_eq_of_lt (by simpa using h)

/-- **C107 (partial): the body of a JPEG 2000 image** of full size, with samples of eight bits and not too large, is its samples, point by
point and row by row, with its measures beside.  Missing: other images (below). -/
theorem C107_samples_partial (i : JpxImage) (hf : FullSize i) (h8 : EightBit i) (hs : i.x1 * i.y1 * i.comps.length < 2 ^ 32) :
    ∃ r, jpxPixels i = .ok r ∧ Interleaved i r ∧
      (i.colors = .srgb → jpxDecode i = .ok (r, ⟨i.x1, i.y1, i.comps.length, .rgb⟩)) ∧
      (i.colors = .gray → jpxDecode i = .ok (r, ⟨i.x1, i.y1, i.comps.length, .gray⟩)) ∧
      (i.colors = .cmyk → jpxDecode i = .ok (r, ⟨i.x1, i.y1, i.comps.length, .cmyk⟩)) := by
  have hz := jpxSize_small hs
  obtain ⟨r, h1, h2, h3⟩ := flat_upTo i (i.x1 * i.y1 * i.comps.length) (fun k hk => by
    obtain ⟨v, hv⟩ := sampleAt_full hf hk
    obtain ⟨c, hc, hm⟩ := sampleAt_mem hv
    exact ⟨by omega, v, hv, h8 c hc v hm⟩)
  have hp : jpxPixels i = .ok r := by rw [jpxPixels_flat]; exact h1
  refine ⟨r, hp, ⟨by omega, fun y x c comp v hy hx hc hv => ?_⟩, fun h => ?_, fun h => ?_, fun h => ?_⟩
  · have hcl : c < i.comps.length := (List.getElem?_eq_some_iff.mp hc).1
    have hb : y * i.x1 + x < i.x1 * i.y1 := by
      have : (y + 1) * i.x1 ≤ i.y1 * i.x1 := Nat.mul_le_mul_right _ hy
      rw [Nat.succ_mul] at this
      rw [Nat.mul_comm i.x1]; omega
    have hb' : (y * i.x1 + x) * i.comps.length + c < i.x1 * i.y1 * i.comps.length := by
      have : (y * i.x1 + x + 1) * i.comps.length ≤ i.x1 * i.y1 * i.comps.length := Nat.mul_le_mul_right _ hb
      rw [Nat.succ_mul] at this; omega
    obtain ⟨v', a, b⟩ := h3 _ hb'
    have e : sampleAt i ((y * i.x1 + x) * i.comps.length + c) = some v := by
      unfold sampleAt
      rw [Nat.mul_comm, Nat.mul_add_mod, Nat.mod_eq_of_lt hcl, hc, Option.bind_some, Nat.mul_add_div (by omega), Nat.div_eq_of_lt hcl,
        Nat.add_zero, hv]
    rw [e] at a
    cases a
    exact b
  · rw [jpxDecode, h, hp]; rfl
  · rw [jpxDecode, h, hp]; rfl
  · rw [jpxDecode, h, hp]; rfl

theorem first_bad (i : JpxImage) (N : Nat) (h : ∃ k < N, ¬ GoodAt i k) : ∃ K < N, ¬ GoodAt i K ∧ ∀ k < K, GoodAt i k := by
  classical
  have hx : ∃ k, ¬ GoodAt i k := by obtain ⟨k, _, h⟩ := h; exact ⟨k, h⟩
  obtain ⟨k, hk, hb⟩ := h
  refine ⟨Nat.find hx, Nat.lt_of_le_of_lt (Nat.find_min' hx hb) hk, Nat.find_spec hx, fun j hj => ?_⟩
  exact Classical.not_not.mp (Nat.find_min hx hj)

/-- **C107 is false of images of which a component has fewer samples than the rectangle from the origin, and of very large images.**  For
all of them memory behind the samples is read, or memory behind the result is written. -/
theorem C107_samples_counterexample (i : JpxImage) (h8 : EightBit i)
    (h : (∃ c ∈ i.comps, c.data.length < i.x1 * i.y1) ∨ 2 ^ 32 ≤ i.x1 * i.y1 * i.comps.length) : jpxPixels i = .error .ub := by
  have hx : ∃ k < i.x1 * i.y1 * i.comps.length, ¬ GoodAt i k := by
    rcases h with ⟨c, hc, hl⟩ | h
    · obtain ⟨j, hj, rfl⟩ := List.getElem_of_mem hc
      have hb' : i.comps[j].data.length * i.comps.length + j < i.x1 * i.y1 * i.comps.length := by
        have : (i.comps[j].data.length + 1) * i.comps.length ≤ i.x1 * i.y1 * i.comps.length := Nat.mul_le_mul_right _ hl
        rw [Nat.succ_mul] at this; omega
      refine ⟨_, hb', ?_⟩
      rintro ⟨_, v, hv, _⟩
      unfold sampleAt at hv
      rw [Nat.mul_comm, Nat.mul_add_mod, Nat.mod_eq_of_lt hj, List.getElem?_eq_getElem hj, Option.bind_some, Nat.mul_add_div (by omega),
        Nat.div_eq_of_lt hj, Nat.add_zero, List.getElem?_eq_none (Nat.le_refl _)] at hv
      cases hv
    · have := jpxSize_lt i
      exact ⟨jpxSize i, Nat.lt_of_lt_of_le this (by simpa using h), fun hg => absurd hg.1 (Nat.lt_irrefl _)⟩
  obtain ⟨K, h1, h2, h3⟩ := first_bad i _ hx
  obtain ⟨b1, b2, _⟩ := flat_bad i K _ h3 h1
  rw [jpxPixels_flat]
  cases hv : sampleAt i K with
  | none => exact b1 hv
  | some v =>
    obtain ⟨c, hc, hm⟩ := sampleAt_mem hv
    obtain ⟨p, q⟩ := h8 c hc v hm
    refine b2 v hv p q ?_
    by_contra hlt
    exact h2 ⟨by omega, v, hv, p, q⟩

theorem upTo_le (a b : Nat) (hb : 1 ≤ b) : upTo a b ≤ a := by
  unfold upTo
  rw [Nat.div_le_iff_le_mul_add_pred (by omega)]
  have : a ≤ b * a := Nat.le_mul_of_pos_left a hb
  omega

theorem upTo_pos (a b : Nat) (ha : 1 ≤ a) (hb : 1 ≤ b) : 1 ≤ upTo a b := by
  unfold upTo
  rw [Nat.le_div_iff_mul_le (by omega)]
  omega

theorem upTo_lt (a b : Nat) (ha : 2 ≤ a) (hb : 2 ≤ b) : upTo a b < a := by
  unfold upTo
  rw [Nat.div_lt_iff_lt_mul (by omega)]
  have : 2 * b ≤ a * b := Nat.mul_le_mul_right b ha
  have h2 : a * 2 ≤ a * b := Nat.mul_le_mul_left a hb
  omega

/-- **C107 is false of images that do not begin at the origin and of those with a coarser grid for some component** (as pictures often
have for their colours): every such image is decoded by reading memory behind its samples. -/
theorem C107_grid_counterexample (i : JpxImage) (h8 : EightBit i) (hg : OnGrid i) (hx : 0 < i.x1) (hy : 0 < i.y1)
    (h : (i.comps ≠ [] ∧ (0 < i.x0 ∨ 0 < i.y0)) ∨ ∃ c ∈ i.comps, (2 ≤ c.dx ∧ 2 ≤ i.x1) ∨ (2 ≤ c.dy ∧ 2 ≤ i.y1)) :
    jpxPixels i = .error .ub := by
  apply C107_samples_counterexample i h8
  left
  have lt1 : ∀ a b : Nat, a < i.x1 → b ≤ i.y1 → a * b < i.x1 * i.y1 := by
    intro a b ha hb
    have h1 : a * b ≤ a * i.y1 := Nat.mul_le_mul_left a hb
    have h2 : (a + 1) * i.y1 ≤ i.x1 * i.y1 := Nat.mul_le_mul_right _ ha
    rw [Nat.succ_mul] at h2; omega
  have lt2 : ∀ a b : Nat, a ≤ i.x1 → b < i.y1 → a * b < i.x1 * i.y1 := by
    intro a b ha hb
    have h1 : a * b ≤ i.x1 * b := Nat.mul_le_mul_right b ha
    have h2 : i.x1 * (b + 1) ≤ i.x1 * i.y1 := Nat.mul_le_mul_left _ hb
    rw [Nat.mul_succ] at h2; omega
  rcases h with ⟨hc, h⟩ | ⟨c, hc, h⟩
  · obtain ⟨c, l, hcl⟩ := List.exists_cons_of_ne_nil hc
    have hm : c ∈ i.comps := by rw [hcl]; exact List.mem_cons_self
    obtain ⟨g1, g2, g3⟩ := hg c hm
    refine ⟨c, hm, ?_⟩
    rw [g3]
    have a1 := upTo_le i.x1 c.dx g1
    have a2 := upTo_le i.y1 c.dy g2
    rcases h with h | h
    · have := upTo_pos i.x0 c.dx h g1
      exact lt1 _ _ (by omega) (by omega)
    · have := upTo_pos i.y0 c.dy h g2
      exact lt2 _ _ (by omega) (by omega)
  · obtain ⟨g1, g2, g3⟩ := hg c hc
    refine ⟨c, hc, ?_⟩
    rw [g3]
    have a1 := upTo_le i.x1 c.dx g1
    have a2 := upTo_le i.y1 c.dy g2
    rcases h with h | h
    · have := upTo_lt i.x1 c.dx h.2 h.1
      exact lt1 _ _ (by omega) (by omega)
    · have := upTo_lt i.y1 c.dy h.2 h.1
      exact lt2 _ _ (by omega) (by omega)

/-- **C107 is false of deeper images.**  Every image with a sample beyond eight bits is refused. -/
theorem C107_depth_counterexample (i : JpxImage) (hf : FullSize i) (hs : i.x1 * i.y1 * i.comps.length < 2 ^ 32)
    (h : ∃ c ∈ i.comps, ∃ v ∈ c.data, v < 0 ∨ 255 < v) : jpxPixels i = .error .conversion := by
  have hz := jpxSize_small hs
  obtain ⟨c, hc, v, hv, hb⟩ := h
  obtain ⟨j, hj, rfl⟩ := List.getElem_of_mem hc
  obtain ⟨k, hk, rfl⟩ := List.getElem_of_mem hv
  have hl := hf _ hc
  have hb' : k * i.comps.length + j < i.x1 * i.y1 * i.comps.length := by
    have : (k + 1) * i.comps.length ≤ i.x1 * i.y1 * i.comps.length := Nat.mul_le_mul_right _ (by omega)
    rw [Nat.succ_mul] at this; omega
  have hx : ∃ k < i.x1 * i.y1 * i.comps.length, ¬ GoodAt i k := by
    refine ⟨_, hb', ?_⟩
    rintro ⟨_, w, hw, h1, h2⟩
    unfold sampleAt at hw
    rw [Nat.mul_comm, Nat.mul_add_mod, Nat.mod_eq_of_lt hj, List.getElem?_eq_getElem hj, Option.bind_some, Nat.mul_add_div (by omega),
      Nat.div_eq_of_lt hj, Nat.add_zero, List.getElem?_eq_getElem hk] at hw
    cases hw
    omega
  obtain ⟨K, h1, h2, h3⟩ := first_bad i _ hx
  obtain ⟨_, _, b3⟩ := flat_bad i K _ h3 h1
  obtain ⟨w, hw⟩ := sampleAt_full hf h1
  rw [jpxPixels_flat]
  exact b3 w hw fun hr => h2 ⟨by omega, w, hw, hr⟩

/-- **C107 is false of skipping.**  OpenJPEG is to be told how many bytes were skipped; it is told the position.  The answer is wrong at
every position but the first. -/
theorem C107_skip_counterexample (position n : Nat) (h : 0 < position) : (jpxSkip position n).2 = position + n ∧ (jpxSkip position n).1 ≠ n := by
  refine ⟨rfl, ?_⟩
  show position + n ≠ n
  omega

/-! ### Cases -/

example : ∃ bs, jpegRun (jpegSource [0xFF, 0xD8, 1, 2, 3]) [.byte, .byte, .skip 2, .byte] = .ok bs ∧ bs.map some = [some 0xFF, some 0xD8, some 3] :=
  C107_source_partial [0xFF, 0xD8, 1, 2, 3] [.byte, .byte, .skip 2, .byte] (by decide)

example : jpegRun (jpegSource [0xFF, 0xD8, 0xFF, 0xFE, 0xFF, 0xFF]) [.byte, .byte, .byte, .byte, .byte, .byte, .skip 65533, .byte] = .error .ub :=
  C107_source_counterexample _ _ ⟨65539, by decide, by decide⟩

example : dctBody 3 2 [[1, 2, 3, 4, 5, 6], [7, 8, 9, 10, 11, 12]] = .ok [1, 2, 3, 4, 5, 6, 7, 8, 9, 10, 11, 12] :=
  C107_rows_partial 3 2 _ (.inr (.inl rfl)) (by decide) (by decide)

/-- Two points of two components. -/
def sampleImage : JpxImage := ⟨0, 0, 2, 1, [⟨1, 1, [1, 2]⟩, ⟨1, 1, [3, 4]⟩], .srgb⟩

example : jpxPixels sampleImage = .ok [1, 3, 2, 4] ∧ FullSize sampleImage ∧ EightBit sampleImage ∧ OnGrid sampleImage := by
  unfold FullSize EightBit OnGrid; decide

example : jpxPixels ⟨0, 0, 2, 2, [⟨1, 1, [1, 2, 3, 4]⟩, ⟨2, 2, [5]⟩], .srgb⟩ = .error .ub :=
  C107_grid_counterexample _ (by unfold EightBit; decide) (by unfold OnGrid; decide) (by decide) (by decide)
    (.inr ⟨⟨2, 2, [5]⟩, by decide, .inl ⟨by decide, by decide⟩⟩)

example : jpxPixels ⟨1, 0, 2, 1, [⟨1, 1, [7]⟩], .gray⟩ = .error .ub :=
  C107_grid_counterexample _ (by unfold EightBit; decide) (by unfold OnGrid; decide) (by decide) (by decide) (.inl ⟨by decide, .inl (by decide)⟩)

example : jpxPixels ⟨0, 0, 1, 1, [⟨1, 1, [1000]⟩], .gray⟩ = .error .conversion :=
  C107_depth_counterexample _ (by unfold FullSize; decide) (by decide) ⟨⟨1, 1, [1000]⟩, by decide, 1000, by decide, by decide⟩

end VPdf
