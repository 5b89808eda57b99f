import Verif.Model.ObjectStream
import Verif.Spec.ObjectStream
import Verif.Lemmas.Write
import Verif.Lemmas.Ints
import Verif.Lemmas.WriteChain
namespace VPdf
open Spec

theorem items_follow (e : Env) (l : List Obj) : ∀ {s : Bytes}, Items l s → Follow s := by
  induction l with
  | nil =>
    intro s h
    cases h with
    | nil sep hs =>
      have := (follow_sep (x := []) hs).mpr follow_nil
      rwa [List.append_nil] at this
  | cons o os ih =>
    intro s h
    cases h with
    | cons _ _ sep t s hs hd hi hb =>
      rw [List.append_assoc]
      exact (follow_sep hs).mpr ((denotes_parses e hd s hb (ih hi)).2)

theorem parse_items (e : Env) {o : Obj} {os : List Obj} {s : Bytes} (h : Items (o :: os) s) :
    ∃ r, parse e s = .ok (.direct o, r) := by
  cases h with
  | cons _ _ sep t s hs hd hi hb =>
    refine ⟨s, ?_⟩
    unfold parse
    rw [List.append_assoc, readDirect_sep e _ _ hs]
    exact (denotes_parses e hd s hb (items_follow e os hi)).1 _ (by simp; omega)

theorem items_ne {o : Obj} {os : List Obj} {s : Bytes} (h : Items (o :: os) s) : s ≠ [] := by
  cases h with
  | cons _ _ sep t s hs hd hi hb => have := denotes_ne hd; simp [this]

theorem cast_i64 (n : Nat) (h : n ≤ 9223372036854775807) : IntTy.cast .i64 (n : Int) = n := by
  have e1 : (2 ^ 64 : Nat) = 18446744073709551616 := by decide
  have e2 : (2 ^ 63 : Nat) = 9223372036854775808 := by decide
  have hm : (n : Int) % 18446744073709551616 = n := by omega
  simp only [IntTy.cast, IntTy.i64, Bool.true_and, e1, e2, show 64 - 1 = 63 by rfl, decide_eq_true_eq]
  rw [if_neg (by simp only [Nat.cast_ofNat]; omega)]
  simpa using hm

theorem safeConvert_i64 (n : Nat) (h : n ≤ 9223372036854775807) : safeConvert .i64 .i64 (n : Int) = .ok (n : Int) := by
  rw [safeConvert, if_pos (by simp [isInRange, isInRangeSame]), cast_i64 n h]

/-- One pair of numbers of the header. -/
theorem readObjStmHeader_text {n off : Nat} {sep1 sn sep2 so s : Bytes} (h1 : Sep sep1) (h2 : IntText n sn) (h3 : Sep sep2)
    (h4 : sep2 ≠ []) (h5 : IntText off so) (h6 : EndsToken s) (hn : n ≤ 9223372036854775807)
    (ho : off ≤ 9223372036854775807) : readObjStmHeader (sep1 ++ sn ++ sep2 ++ so ++ s) = .ok ((n, (off : Int)), s) := by
  have e1 : readTokenSkip parserKeywords (sep1 ++ (sn ++ (sep2 ++ (so ++ s)))) = .ok (⟨.integer, sn⟩, sep2 ++ (so ++ s)) := by
    rw [readTokenSkip_sep _ _ _ h1]
    exact readTokenSkip_of_token (readToken_int parserKeywords h2 _ (sep_ends _ _ h3 h4)) (by simp)
  have e2 : readTokenSkip parserKeywords (sep2 ++ (so ++ s)) = .ok (⟨.integer, so⟩, s) := by
    rw [readTokenSkip_sep _ _ _ h3]
    exact readTokenSkip_of_token (readToken_int parserKeywords h5 _ h6) (by simp)
  rw [readObjStmHeader, expectSkip]
  simp only [List.append_assoc]
  rw [e1, ok_bind]
  simp only [beq_self_eq_true, if_true]
  show (expectSkip parserKeywords .integer (sep2 ++ (so ++ s)) >>= _) = _
  rw [expectSkip, e2, ok_bind]
  simp only [beq_self_eq_true, if_true]
  show (stoll sn >>= _) = _
  rw [stoll_text h2 (by omega) (by omega), ok_bind]
  show (stoll so >>= _) = _
  rw [stoll_text h5 (by omega) (by omega), ok_bind, safeConvert_u64 (by omega), ok_bind, safeConvert_i64 off ho, ok_bind]
  rfl

theorem readObjStmHeaders_text {l : List (Nat × Nat)} {s : Bytes} (h : PairsText l s)
    (hb : ∀ x ∈ l, x.1 ≤ 9223372036854775807 ∧ x.2 ≤ 9223372036854775807) :
    readObjStmHeaders l.length s = .ok (l.map fun x => (x.1, (x.2 : Int))) := by
  induction h with
  | nil s => rfl
  | cons n off l sep1 sn sep2 so s h1 h2 h3 h4 h5 h6 _ ih =>
    obtain ⟨b1, b2⟩ := hb (n, off) (by simp)
    rw [List.length_cons, readObjStmHeaders, readObjStmHeader_text h1 h2 h3 h4 h5 h6 b1 b2, ok_bind]
    dsimp only
    rw [ih (fun x hx => hb x (by simp [hx])), ok_bind]
    rfl

theorem readObjStmObjects_text (e : Env) (first : Nat) (l : List (Nat × Nat × Obj))
    (hlen : e.whole.length ≤ 9223372036854775807)
    (h : ∀ x ∈ l, ObjectAt e.whole (first + x.2.1) x.2.2) :
    readObjStmObjects e first (l.map fun x => (x.1, (x.2.1 : Int))) = .ok (l.map fun x => (x.1, x.2.2)) := by
  induction l with
  | nil => rfl
  | cons x l ih =>
    obtain ⟨n, off, o⟩ := x
    obtain ⟨os, ho⟩ := h (n, off, o) (by simp)
    have hlt : first + off < e.whole.length := by
      by_contra hn
      exact items_ne ho (List.drop_eq_nil_of_le (by simpa using hn))
    obtain ⟨r, hr⟩ := parse_items e ho
    have hs : e.seek (IntTy.i64.cast ((first : Int) + (off : Int))) = e.whole.drop (first + off) := by
      have : (first : Int) + (off : Int) = ((first + off : Nat) : Int) := by omega
      rw [this, cast_i64 _ (by omega), Env.seek, if_neg (by omega)]; rfl
    rw [List.map_cons, readObjStmObjects, hs, hr, ok_bind]
    dsimp only
    rw [ih (fun x hx => h x (by simp [hx])), ok_bind]
    rfl

theorem natEntry_int (e : Env) {k : Bytes} {d : Dict} {v : Nat} (h : mapFind k d = some (.int v)) : natEntry e k d = .ok v := by
  have : natEntry e k d = if (v : Int) < 0 then .error .conversion else .ok (v : Int).toNat := by
    unfold natEntry
    simp only [h, asInt, ok_bind]
    by_cases hv : (v : Int) < 0
    · simp only [if_pos hv]; rfl
    · simp only [if_neg hv]; rfl
  rw [this, if_neg (by omega)]; rfl

/-! ### the text the writer makes -/

/-- The offsets of the texts. -/
def objStmOffsets : Nat → List (Nat × Bytes) → List (Nat × Nat)
  | _, [] => []
  | off, (n, t) :: l => (n, off) :: objStmOffsets (off + t.length + 1) l

theorem objStmHeader_pairs (l : List (Nat × Bytes)) : ∀ (off : Nat) (sep rest : Bytes), Sep sep → EndsToken rest →
    PairsText (objStmOffsets off l) (sep ++ objStmHeader off l ++ rest) := by
  induction l with
  | nil => intro off sep rest _ _; exact .nil _
  | cons x l ih =>
    intro off sep rest hs hr
    obtain ⟨n, t⟩ := x
    cases l with
    | nil =>
      have := PairsText.cons n off [] sep (natDec n) [0x20] (natDec off) rest hs (natDec_text n) sep_space (by simp)
        (natDec_text off) hr (.nil _)
      simpa [objStmHeader, objStmOffsets] using this
    | cons y l =>
      have := PairsText.cons n off _ sep (natDec n) [0x20] (natDec off) ([0x20] ++ objStmHeader (off + t.length + 1) (y :: l) ++ rest)
        hs (natDec_text n) sep_space (by simp) (natDec_text off) (by intro d hd; simp at hd; subst hd; decide)
        (ih (off + t.length + 1) [0x20] rest sep_space hr)
      simpa [objStmHeader, objStmOffsets] using this

theorem objStmData_items (l : List (Nat × Obj)) (h : ∀ x ∈ l, Holdable x.2) (sep : Bytes) (hs : Sep sep) :
    Items (l.map fun x => dropNulls x.2) (sep ++ objStmData (l.map fun x => (x.1, writeObj x.2))) := by
  induction l generalizing sep with
  | nil => simpa [objStmData] using Items.nil sep hs
  | cons x l ih =>
    obtain ⟨n, o⟩ := x
    have ho := writeObj_denotes' (h (n, o) (by simp))
    cases l with
    | nil =>
      have := Items.cons (dropNulls o) [] sep (writeObj o) [] hs ho (.nil [] .nil) (Or.inr (by intro d hd; simp at hd))
      simpa [objStmData] using this
    | cons y l =>
      have := Items.cons (dropNulls o) _ sep (writeObj o) _ hs ho (ih (fun x hx => h x (by simp [hx])) [0x20] sep_space)
        (Or.inr (by intro d hd; simp at hd; subst hd; decide))
      simpa [objStmData] using this

/-- Every object is at its offset. -/
theorem objStm_objects (l : List (Nat × Obj)) (h : ∀ x ∈ l, Holdable x.2) (off : Nat) (pre : Bytes) :
    ∃ ps : List (Nat × Nat × Obj), ps.map (fun x => (x.1, x.2.1)) = objStmOffsets off (l.map fun x => (x.1, writeObj x.2)) ∧
      ps.map (fun x => (x.1, x.2.2)) = l.map (fun x => (x.1, dropNulls x.2)) ∧
      ∀ x ∈ ps, off ≤ x.2.1 ∧ ObjectAt (pre ++ objStmData (l.map fun x => (x.1, writeObj x.2))) (pre.length + (x.2.1 - off)) x.2.2 := by
  induction l generalizing off pre with
  | nil => exact ⟨[], rfl, rfl, by simp⟩
  | cons x l ih =>
    have hi := objStmData_items (x :: l) h [] .nil
    obtain ⟨n, o⟩ := x
    cases l with
    | nil =>
      refine ⟨[(n, off, dropNulls o)], rfl, rfl, ?_⟩
      intro x hx
      simp only [List.mem_singleton] at hx; subst hx
      exact ⟨Nat.le_refl _, [], by simpa using hi⟩
    | cons y l =>
      obtain ⟨ps, h1, h2, h3⟩ := ih (fun x hx => h x (by simp [hx])) (off + (writeObj o).length + 1) (pre ++ writeObj o ++ b! " ")
      refine ⟨(n, off, dropNulls o) :: ps, ?_, ?_, ?_⟩
      · rw [List.map_cons, h1]; rfl
      · rw [List.map_cons, h2]; rfl
      · intro x hx
        rcases List.mem_cons.mp hx with rfl | hx
        · exact ⟨Nat.le_refl _, _, by simpa using hi⟩
        · obtain ⟨a1, a2⟩ := h3 x hx
          refine ⟨by omega, ?_⟩
          have hl : (pre ++ writeObj o ++ b! " ").length + (x.2.1 - (off + (writeObj o).length + 1)) = pre.length + (x.2.1 - off) := by
            have : (b! " ").length = 1 := rfl
            simp only [List.length_append, this]; omega
          rw [hl] at a2
          simpa [objStmData] using a2

end VPdf
