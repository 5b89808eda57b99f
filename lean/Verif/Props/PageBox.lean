import Verif.Spec.PageBox
import Verif.Props.NumberObjects
import Verif.Props.ViewSettings
/-
  C102: the media box of pages.
-/
namespace VPdf
open Spec

theorem boxPart_number {s : PStore} {o : Obj} {n : Int × Nat} (h : IsNumber s o n.1 n.2) (hf : Fits64 n) :
    ∃ v, boxPart s o = .ok v ∧ WholePart v n ∧ ∀ w : Int, n.1 = w * (10 ^ n.2 : Nat) → v = w := by
  obtain ⟨m, k⟩ := n
  unfold Fits64 at hf
  dsimp only at h hf
  have hp : (0 : Int) < (10 ^ k : Nat) := by exact_mod_cast Nat.pow_pos (by decide)
  cases h with
  | int hv =>
    refine ⟨m, ?_, ?_, ?_⟩
    · unfold boxPart; rw [derefOne_of_refers hv]; rfl
    · unfold WholePart; simp
    · intro w hw; simpa using hw
  | real k hv =>
    have hlt : Int.tdiv m ((10 ^ k : Nat) : Int) < 2 ^ 63 := by
      by_contra hge
      have h0 : 0 ≤ m := by
        by_contra hm
        have := Int.tdiv_nonneg (a := -m) (b := ((10 ^ k : Nat) : Int)) (by omega) hp.le
        rw [Int.neg_tdiv] at this; omega
      have h1 : Int.tdiv m ((10 ^ k : Nat) : Int) * (10 ^ k : Nat) ≤ m := by
        rw [Int.tdiv_eq_ediv_of_nonneg h0]; exact Int.ediv_mul_le _ hp.ne'
      have h2 : (2 ^ 63 : Int) * (10 ^ k : Nat) ≤ Int.tdiv m ((10 ^ k : Nat) : Int) * (10 ^ k : Nat) := by nlinarith
      linarith [hf.2]
    have e : NumVal.getInt (.real m k) = .ok (Int.tdiv m ((10 ^ k : Nat) : Int)) := by
      simp only [NumVal.getInt, realAsInt]
      rw [if_pos ⟨by linarith [hf.1], by linarith [hf.2]⟩, if_pos hlt]
    refine ⟨Int.tdiv m ((10 ^ k : Nat) : Int), ?_, ?_, ?_⟩
    · unfold boxPart; rw [derefOne_of_refers hv]; exact e
    · obtain ⟨a, b, c, d, _⟩ := C101_fraction m _ k e
      exact ⟨a, b, c, d⟩
    · intro w hw
      dsimp only at hw
      rw [hw, Int.mul_tdiv_cancel _ hp.ne']

/-- A page with a box of its own shows that box, each coordinate without its fraction. -/
theorem C102_own_partial (s : PStore) (page : Dict) (ns : Fin 4 → Int × Nat) (h : OwnBox s page ns) (hf : ∀ i, Fits64 (ns i)) :
    ∃ b, pageBox s page = .ok (some b) ∧ ∀ i, WholePart (Coordinates b i) (ns i) := by
  obtain ⟨a, b, c, d, he, ha, hb, hc, hd⟩ := h
  obtain ⟨va, ea, wa, _⟩ := boxPart_number ha (hf 0)
  obtain ⟨vb, eb, wb, _⟩ := boxPart_number hb (hf 1)
  obtain ⟨vc, ec, wc, _⟩ := boxPart_number hc (hf 2)
  obtain ⟨vd, ed, wd, _⟩ := boxPart_number hd (hf 3)
  refine ⟨⟨va, vb, vc, vd⟩, ?_, ?_⟩
  · unfold pageBox
    have hs : ∃ o, mapFind (b! "MediaBox") page = some o := by
      rcases he.2 with h | ⟨n, g, h, _⟩ <;> exact ⟨_, h⟩
    obtain ⟨o, ho⟩ := hs
    rw [ho]
    dsimp only
    rw [treeArray_of_has he, ok_bind]
    dsimp only
    rw [ea, eb, ec, ed]; rfl
  · intro i
    match i with
    | 0 => exact wa
    | 1 => exact wb
    | 2 => exact wc
    | 3 => exact wd

/-- A box of integers is shown as it is. -/
theorem C102_integers (s : PStore) (page : Dict) (b : Box) (h : OwnBox s page fun i => (Coordinates b i, 0))
    (hf : ∀ i, Fits64 (Coordinates b i, 0)) : pageBox s page = .ok (some b) := by
  obtain ⟨b', hb, hw⟩ := C102_own_partial s page _ h hf
  have e : ∀ i, Coordinates b' i = Coordinates b i := by
    intro i
    have := hw i
    unfold WholePart at this
    simp only [Nat.pow_zero, Nat.mul_one] at this
    omega
  have : b' = b := by
    obtain ⟨x, y, z, u⟩ := b
    obtain ⟨x', y', z', u'⟩ := b'
    have e0 := e 0
    have e1 := e 1
    have e2 := e 2
    have e3 := e 3
    simp only [Coordinates] at e0 e1 e2 e3
    subst e0 e1 e2 e3; rfl
  rw [hb, this]

/-- A coordinate with a fraction is shown as another number. -/
theorem C102_fraction_counterexample (s : PStore) (page : Dict) (ns : Fin 4 → Int × Nat) (h : OwnBox s page ns) (hf : ∀ i, Fits64 (ns i))
    (i : Fin 4) (hi : ¬ ((10 ^ (ns i).2 : Nat) : Int) ∣ (ns i).1) :
    ∃ b, pageBox s page = .ok (some b) ∧ Coordinates b i * (10 ^ (ns i).2 : Nat) ≠ (ns i).1 := by
  obtain ⟨b, hb, _⟩ := C102_own_partial s page ns h hf
  refine ⟨b, hb, ?_⟩
  intro e
  exact hi ⟨Coordinates b i, by rw [← e, mul_comm]⟩

/-- A page that inherits its box is reported to have none. -/
theorem C102_inherited_counterexample (s : PStore) (page parent : Dict) (ns : Fin 4 → Int × Nat) (h : Absent page (b! "MediaBox"))
    (hp : HasEntry s page (b! "Parent") (.dict parent)) (hb : HasBox s parent ns) :
    HasBox s page ns ∧ pageBox s page = .ok none := by
  refine ⟨.inherited page parent ns h hp hb, ?_⟩
  unfold pageBox
  rw [absent_iff.mp h]

/-- No box is reported only if the page has no entry of its own. -/
theorem C102_missing (s : PStore) (page : Dict) (h : pageBox s page = .ok none) : Absent page (b! "MediaBox") := by
  rw [absent_iff]
  unfold pageBox at h
  split at h
  · assumption
  · exfalso
    obtain ⟨l, _, h⟩ := bind_ok h
    split at h
    · obtain ⟨_, _, h⟩ := bind_ok h
      obtain ⟨_, _, h⟩ := bind_ok h
      obtain ⟨_, _, h⟩ := bind_ok h
      obtain ⟨_, _, h⟩ := bind_ok h
      cases h
    · cases h

/-- The box that was set is the box of the page, and the other entries of the page are as before. -/
theorem C102_set (s : PStore) (page : Dict) (b : Box) :
    OwnBox s (setPageBox page b) (fun i => (Coordinates b i, 0)) ∧
    ((∀ i, Fits64 (Coordinates b i, 0)) → pageBox s (setPageBox page b) = .ok (some b)) ∧
    ∀ k, k ≠ b! "MediaBox" → valueAt k (setPageBox page b) = valueAt k page := by
  have hfind : mapFind (b! "MediaBox") (setPageBox page b) = some b.array := by
    unfold setPageBox
    apply mapFind_insert_new
    split
    · rw [mapErase_find, if_pos rfl]
    · rename_i h; simpa using h
  have own : OwnBox s (setPageBox page b) (fun i => (Coordinates b i, 0)) := by
    refine ⟨.int b.llx, .int b.lly, .int b.urx, .int b.ury, ⟨(by intro n g e; cases e), .inl hfind⟩, ?_, ?_, ?_, ?_⟩ <;>
      exact .int _ ⟨(by intro n g e; cases e), .inl rfl⟩
  refine ⟨own, fun hf => C102_integers s _ b own hf, ?_⟩
  intro k hk
  rw [valueAt_eq, valueAt_eq]
  unfold setPageBox
  rw [mapFind_insert_ne hk]
  split
  · rw [mapErase_find, if_neg hk]
  · rfl

/-! ### Cases -/

/-- A page of 595.28 by 842 units, one that inherits, and one whose box has been set. -/
def boxStore : PStore := fun r => if r = (7, 0) then .real 59528 2 else .null

def boxPage : Dict := [(b! "MediaBox", .arr [.int 0, .int (-10), .ref 7 0, .int 842]), (b! "Type", .name (b! "Page"))]

example : pageBox boxStore boxPage = .ok (some ⟨0, -10, 595, 842⟩) := by decide +kernel
example : OwnBox boxStore boxPage fun | 0 => (0, 0) | 1 => (-10, 0) | 2 => (59528, 2) | 3 => (842, 0) :=
  ⟨_, _, _, _, ⟨(by intro n g e; cases e), .inl rfl⟩, .int 0 ⟨(by intro n g e; cases e), .inl rfl⟩,
    .int (-10) ⟨(by intro n g e; cases e), .inl rfl⟩,
    .real 59528 2 ⟨(by intro n g e; cases e), .inr ⟨7, 0, rfl, rfl⟩⟩, .int 842 ⟨(by intro n g e; cases e), .inl rfl⟩⟩
example : ¬ ((10 ^ 2 : Nat) : Int) ∣ 59528 := by decide
example : pageBox boxStore [(b! "Parent", .dict boxPage)] = .ok none := by decide +kernel
example : pageBox boxStore (setPageBox boxPage ⟨1, 2, 3, 4⟩) = .ok (some ⟨1, 2, 3, 4⟩) := by decide +kernel
example : pageBox boxStore [(b! "MediaBox", .arr [.int 0, .int 0])] = .error .throw := by decide +kernel

end VPdf
