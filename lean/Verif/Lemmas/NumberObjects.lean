import Verif.Spec.NumberObjects
import Verif.Lemmas.Write
import Mathlib.Tactic.Ring
import Mathlib.Tactic.Linarith
/-
  Lemmas about number objects.
-/
namespace VPdf
open Spec

/-- What a call does to the objects: it adds one at most, and leaves the others as they are. -/
theorem numCall_objs (w : NumWorld) (c : NumCall) : ∃ l, (numCall w c).1.objs = w.objs ++ l := by
  have hassign : ∀ i o v, (w.assign i o v).1.objs = w.objs := by
    intro i o v; unfold NumWorld.assign; (repeat' split) <;> rfl
  have hview : ∀ i o, ∃ l, (w.view i o).1.objs = w.objs ++ l := by
    intro i o; unfold NumWorld.view
    split
    · exact ⟨[], by simp⟩
    · split
      · exact ⟨[], by simp⟩
      · exact ⟨_, rfl⟩
  cases c with
  | newInteger => exact ⟨_, rfl⟩
  | newReal m k p => exact ⟨_, rfl⟩
  | setInteger o v => exact ⟨[], by simp [numCall, hassign]⟩
  | setUnsigned o v => exact ⟨[], by simp [numCall, hassign]⟩
  | setReal o m k => exact ⟨[], by simp [numCall, hassign]⟩
  | asInteger o => exact hview _ _
  | asReal o => exact hview _ _
  | clone o =>
    simp only [numCall]
    split
    · exact ⟨[], by simp⟩
    · split
      · exact ⟨[], by simp⟩
      · exact ⟨_, rfl⟩
  | setBit o pos b =>
    refine ⟨[], ?_⟩
    simp only [numCall]
    split
    · simp
    · split
      · simp
      · split
        · simp [hassign]
        · simp

theorem numCall_obj {w : NumWorld} {c : NumCall} {i : Nat} {x : NumObj} (h : w.objs[i]? = some x) : (numCall w c).1.objs[i]? = some x := by
  obtain ⟨l, e⟩ := numCall_objs w c
  rw [e, List.getElem?_append_left (List.getElem?_eq_some_iff.1 h).1, h]

/-- Objects with one backend are those that stand for one number. -/
structure NumInv (w : NumWorld) (h : List (NumCall × NumAnswer)) : Prop where
  valid : ∀ (i : Nat) (x : NumObj), w.objs[i]? = some x → x.cell < w.cells.length
  known : ∀ a b, SameNumber h a b → a = b ∨ (a < w.objs.length ∧ b < w.objs.length)
  same : ∀ (a b : Nat) (x y : NumObj), w.objs[a]? = some x → w.objs[b]? = some y → (x.cell = y.cell ↔ SameNumber h a b)

theorem Spec.SameNumber.mono {h h' : List (NumCall × NumAnswer)} (s : ∀ x ∈ h, x ∈ h') {a b : Nat} (r : SameNumber h a b) : SameNumber h' a b := by
  induction r with
  | refl a => exact .refl a
  | integer a b m => exact .integer a b (s _ m)
  | real a b m => exact .real a b (s _ m)
  | symm a b _ ih => exact .symm _ _ ih
  | trans a b c _ _ h1 h2 => exact .trans _ _ _ h1 h2

/-- A call that asks for no view of an object joins no numbers. -/
theorem Spec.SameNumber.skip {h : List (NumCall × NumAnswer)} {x : NumCall × NumAnswer}
    (hx : ∀ a b, x = (.asInteger a, .object b) ∨ x = (.asReal a, .object b) → SameNumber h a b) {a b : Nat}
    (r : SameNumber (h ++ [x]) a b) : SameNumber h a b := by
  induction r with
  | refl a => exact .refl a
  | integer a b m =>
    rcases List.mem_append.1 m with m | m
    · exact .integer a b m
    · exact hx a b (.inl (List.mem_singleton.1 m).symm)
  | real a b m =>
    rcases List.mem_append.1 m with m | m
    · exact .real a b m
    · exact hx a b (.inr (List.mem_singleton.1 m).symm)
  | symm a b _ ih => exact .symm _ _ ih
  | trans a b c _ _ h1 h2 => exact .trans _ _ _ h1 h2

/-- A call that asks for a new view `n` of object `o`. -/
theorem Spec.SameNumber.join {h : List (NumCall × NumAnswer)} {x : NumCall × NumAnswer} {o n : Nat}
    (hx : ∀ a b, x = (.asInteger a, .object b) ∨ x = (.asReal a, .object b) → a = o ∧ b = n)
    (hn : ∀ a b, SameNumber h a b → a = b ∨ (a < n ∧ b < n)) (hon : o < n) {a b : Nat}
    (r : SameNumber (h ++ [x]) a b) : SameNumber h (if a = n then o else a) (if b = n then o else b) := by
  have step : ∀ a b, SameNumber h a b → SameNumber h (if a = n then o else a) (if b = n then o else b) := by
    intro a b s
    rcases hn a b s with e | ⟨l1, l2⟩
    · rw [e]; exact .refl _
    · rwa [if_neg (by omega), if_neg (by omega)]
  induction r with
  | refl a => exact .refl _
  | integer a b m =>
    rcases List.mem_append.1 m with m | m
    · exact step _ _ (.integer a b m)
    · obtain ⟨rfl, rfl⟩ := hx a b (.inl (List.mem_singleton.1 m).symm)
      rw [if_pos rfl]
      split
      · exact .refl _
      · exact .refl _
  | real a b m =>
    rcases List.mem_append.1 m with m | m
    · exact step _ _ (.real a b m)
    · obtain ⟨rfl, rfl⟩ := hx a b (.inr (List.mem_singleton.1 m).symm)
      rw [if_pos rfl]
      split
      · exact .refl _
      · exact .refl _
  | symm a b _ ih => exact .symm _ _ ih
  | trans a b c _ _ h1 h2 => exact .trans _ _ _ h1 h2

/-- A call that leaves the objects alone, and is no request for a view (or gave the object itself). -/
theorem NumInv.keep {w w' : NumWorld} {h : List (NumCall × NumAnswer)} {x : NumCall × NumAnswer} (inv : NumInv w h)
    (ho : w'.objs = w.objs) (hc : w'.cells.length = w.cells.length)
    (hx : ∀ a b, x = (.asInteger a, .object b) ∨ x = (.asReal a, .object b) → SameNumber h a b) : NumInv w' (h ++ [x]) := by
  refine ⟨?_, ?_, ?_⟩
  · rw [ho, hc]; exact inv.valid
  · rw [ho]; intro a b r; exact inv.known a b (r.skip hx)
  · rw [ho]; intro a b y z hy hz
    rw [inv.same a b y z hy hz]
    exact ⟨fun r => r.mono fun _ m => List.mem_append_left _ m, fun r => r.skip hx⟩

theorem getElem?_snoc {α : Type} {l : List α} {x y : α} {i : Nat} (h : (l ++ [x])[i]? = some y) :
    (l[i]? = some y ∧ i < l.length) ∨ (i = l.length ∧ y = x) := by
  rcases Nat.lt_trichotomy i l.length with c | c | c
  · rw [List.getElem?_append_left c] at h; exact .inl ⟨h, c⟩
  · subst c; simp at h; exact .inr ⟨rfl, h.symm⟩
  · rw [List.getElem?_eq_none (by simp; omega)] at h; cases h

/-- A new object with a new backend. -/
theorem NumInv.make {w : NumWorld} {h : List (NumCall × NumAnswer)} {x : NumCall × NumAnswer} (inv : NumInv w h) (i : Bool) (c : NumCell)
    (hx : ∀ a b, x ≠ (.asInteger a, .object b) ∧ x ≠ (.asReal a, .object b)) : NumInv (w.make i c).1 (h ++ [x]) := by
  have hx' : ∀ a b, x = (.asInteger a, .object b) ∨ x = (.asReal a, .object b) → SameNumber h a b :=
    fun a b e => absurd e (by rintro (e | e); exact (hx a b).1 e; exact (hx a b).2 e)
  simp only [NumWorld.make]
  refine ⟨?_, ?_, ?_⟩
  · intro k y hy
    simp only [List.length_append, List.length_singleton]
    rcases getElem?_snoc hy with ⟨hy, _⟩ | ⟨_, rfl⟩
    · have := inv.valid k y hy; omega
    · simp
  · intro a b r
    rcases inv.known a b (r.skip hx') with e | ⟨l1, l2⟩
    · exact .inl e
    · simp; omega
  · intro a b y z hy hz
    rcases getElem?_snoc hy with ⟨hy, ha⟩ | ⟨ha, rfl⟩ <;> rcases getElem?_snoc hz with ⟨hz, hb⟩ | ⟨hb, rfl⟩
    · rw [inv.same a b y z hy hz]
      exact ⟨fun r => r.mono fun _ m => List.mem_append_left _ m, fun r => r.skip hx'⟩
    · have := inv.valid a y hy
      constructor
      · intro e; dsimp only at e; omega
      · intro r; rcases inv.known a b (r.skip hx') with e | ⟨l1, l2⟩ <;> omega
    · have := inv.valid b z hz
      constructor
      · intro e; dsimp only at e; omega
      · intro r; rcases inv.known a b (r.skip hx') with e | ⟨l1, l2⟩ <;> omega
    · rw [ha, hb]; exact ⟨fun _ => .refl _, fun _ => rfl⟩

/-- A new object with the backend of object `o`. -/
theorem NumInv.view {w : NumWorld} {h : List (NumCall × NumAnswer)} {x : NumCall × NumAnswer} (inv : NumInv w h) (i : Bool) (o : Nat)
    (u : NumObj) (hu : w.objs[o]? = some u)
    (hx : x = (.asInteger o, .object w.objs.length) ∨ x = (.asReal o, .object w.objs.length)) :
    NumInv ⟨w.objs ++ [⟨i, u.cell⟩], w.cells⟩ (h ++ [x]) := by
  have ho : o < w.objs.length := (List.getElem?_eq_some_iff.1 hu).1
  have hx' : ∀ a b, x = (.asInteger a, .object b) ∨ x = (.asReal a, .object b) → a = o ∧ b = w.objs.length := by
    rintro a b (rfl | rfl) <;> rcases hx with e | e <;> injection e with e1 e2 <;> cases e1 <;> cases e2 <;> exact ⟨rfl, rfl⟩
  have new : SameNumber (h ++ [x]) o w.objs.length := by
    rcases hx with rfl | rfl
    · exact .integer _ _ (by simp)
    · exact .real _ _ (by simp)
  have old : ∀ {a b}, SameNumber h a b → SameNumber (h ++ [x]) a b := fun r => r.mono fun _ m => List.mem_append_left _ m
  have back : ∀ {a b}, SameNumber (h ++ [x]) a b → _ := fun {a b} r => SameNumber.join (a := a) (b := b) hx' inv.known ho r
  refine ⟨?_, ?_, ?_⟩
  · intro k y hy
    rcases getElem?_snoc hy with ⟨hy, _⟩ | ⟨_, rfl⟩
    · exact inv.valid k y hy
    · exact inv.valid o u hu
  · intro a b r
    have s := inv.known _ _ (back r)
    simp only [List.length_append, List.length_singleton]
    revert s
    split <;> split <;> intro s <;> rcases s with e | ⟨l1, l2⟩ <;> omega
  · intro a b y z hy hz
    rcases getElem?_snoc hy with ⟨hy, ha⟩ | ⟨ha, rfl⟩ <;> rcases getElem?_snoc hz with ⟨hz, hb⟩ | ⟨hb, rfl⟩
    · rw [inv.same a b y z hy hz]
      refine ⟨old, fun r => ?_⟩
      have := back r
      rwa [if_neg (by omega), if_neg (by omega)] at this
    · have e := inv.same a o y u hy hu
      dsimp only
      rw [e]
      refine ⟨fun r => .trans _ _ _ (old r) (hb ▸ new), fun r => ?_⟩
      have := back r
      rwa [if_neg (by omega), if_pos hb] at this
    · have e := inv.same o b u z hu hz
      dsimp only
      rw [e]
      refine ⟨fun r => .trans _ _ _ (.symm _ _ (ha ▸ new)) (old r), fun r => ?_⟩
      have := back r
      rwa [if_pos ha, if_neg (by omega)] at this
    · rw [ha, hb]; exact ⟨fun _ => .refl _, fun _ => rfl⟩

theorem assign_length (w : NumWorld) (i : Bool) (o : Nat) (v : NumVal) : (w.assign i o v).1.objs = w.objs ∧ (w.assign i o v).1.cells.length = w.cells.length := by
  unfold NumWorld.assign; (repeat' split) <;> simp

theorem NumInv.call {w : NumWorld} {h : List (NumCall × NumAnswer)} (inv : NumInv w h) (c : NumCall) :
    NumInv (numCall w c).1 (h ++ [(c, (numCall w c).2)]) := by
  have hview : ∀ (i : Bool) (o : Nat) (c : NumCall), (c = .asInteger o ∨ c = .asReal o) →
      NumInv (w.view i o).1 (h ++ [(c, (w.view i o).2)]) := by
    intro i o c hc
    unfold NumWorld.view
    cases hu : w.objs[o]? with
    | none => exact inv.keep rfl rfl (by rintro a b (e | e) <;> cases e)
    | some u =>
      dsimp only
      split
      · refine inv.keep rfl rfl ?_
        rintro a b (e | e) <;> injection e with e1 e2 <;> injection e2 with e2 <;> subst e1 e2 <;> rcases hc with e | e <;> cases e <;> exact .refl _
      · exact inv.view i o u hu (by rcases hc with rfl | rfl; exact .inl rfl; exact .inr rfl)
  cases c with
  | newInteger => exact inv.make _ _ (fun a b => ⟨nofun, nofun⟩)
  | newReal m k p => exact inv.make _ _ (fun a b => ⟨nofun, nofun⟩)
  | setInteger o v => exact inv.keep (assign_length ..).1 (assign_length ..).2 (by rintro a b (e | e) <;> cases e)
  | setUnsigned o v => exact inv.keep (assign_length ..).1 (assign_length ..).2 (by rintro a b (e | e) <;> cases e)
  | setReal o m k => exact inv.keep (assign_length ..).1 (assign_length ..).2 (by rintro a b (e | e) <;> cases e)
  | asInteger o => exact hview _ _ _ (.inl rfl)
  | asReal o => exact hview _ _ _ (.inr rfl)
  | clone o =>
    simp only [numCall]
    split
    · exact inv.keep rfl rfl (by rintro a b (e | e) <;> cases e)
    · split
      · exact inv.keep rfl rfl (by rintro a b (e | e) <;> cases e)
      · exact inv.make _ _ (fun a b => ⟨nofun, nofun⟩)
  | setBit o pos b =>
    simp only [numCall]
    split
    · exact inv.keep rfl rfl (by rintro a b (e | e) <;> cases e)
    · split
      · exact inv.keep rfl rfl (by rintro a b (e | e) <;> cases e)
      · split
        · exact inv.keep (assign_length ..).1 (assign_length ..).2 (by rintro a b (e | e) <;> cases e)
        · exact inv.keep rfl rfl (by rintro a b (e | e) <;> cases e)

theorem NumInv.calls {w : NumWorld} {h : List (NumCall × NumAnswer)} (inv : NumInv w h) (cs : List NumCall) :
    NumInv (numCalls w cs).1 (h ++ (numCalls w cs).2) := by
  induction cs generalizing w h with
  | nil => simpa [numCalls] using inv
  | cons c cs ih =>
    have := ih (inv.call c)
    simpa [numCalls] using this

theorem numInv_start (cs : List NumCall) : NumInv (numCalls ⟨[], []⟩ cs).1 (numCalls ⟨[], []⟩ cs).2 := by
  have : NumInv ⟨[], []⟩ [] := by
    refine ⟨nofun, ?_, nofun⟩
    intro a b r
    left
    induction r with
    | refl a => rfl
    | integer a b m => cases m
    | real a b m => cases m
    | symm a b _ ih => exact ih.symm
    | trans a b c _ _ h1 h2 => exact h1.trans h2
  simpa using this.calls cs

theorem numCalls_append (w : NumWorld) (as bs : List NumCall) :
    numCalls w (as ++ bs) = ((numCalls (numCalls w as).1 bs).1, (numCalls w as).2 ++ (numCalls (numCalls w as).1 bs).2) := by
  induction as generalizing w with
  | nil => rfl
  | cons a as ih => simp [numCalls, ih]

theorem numCalls_obj {w : NumWorld} {cs : List NumCall} {i : Nat} {x : NumObj} (h : w.objs[i]? = some x) :
    (numCalls w cs).1.objs[i]? = some x := by
  induction cs generalizing w with
  | nil => exact h
  | cons c cs ih => exact ih (numCall_obj h)

/-- A call leaves a backend alone, unless a number is set through an object that has it. -/
theorem numCall_cell {w : NumWorld} {c : NumCall} {k : Nat} {v : NumCell} (hk : w.cells[k]? = some v)
    (hs : ∀ (o : Nat) (x : NumObj), setThrough c = some o → w.objs[o]? = some x → x.cell ≠ k) : (numCall w c).1.cells[k]? = some v := by
  have hl : k < w.cells.length := (List.getElem?_eq_some_iff.1 hk).1
  have hassign : ∀ i o u, (∀ x : NumObj, w.objs[o]? = some x → x.cell ≠ k) → (w.assign i o u).1.cells[k]? = some v := by
    intro i o u ne
    unfold NumWorld.assign
    split
    · exact hk
    · rename_i x hx
      split
      · dsimp only
        rw [List.getElem?_modify, hk]; simp [ne x hx]
      · exact hk
  have hmake : ∀ i u, (w.make i u).1.cells[k]? = some v := by
    intro i u
    simp only [NumWorld.make]
    rw [List.getElem?_append_left hl, hk]
  have hview : ∀ i o, (w.view i o).1.cells[k]? = some v := by
    intro i o; unfold NumWorld.view
    split
    · exact hk
    · split <;> exact hk
  cases c with
  | newInteger => exact hmake _ _
  | newReal m k p => exact hmake _ _
  | setInteger o u => exact hassign _ _ _ fun x hx => hs o x rfl hx
  | setUnsigned o u => exact hassign _ _ _ fun x hx => hs o x rfl hx
  | setReal o m k => exact hassign _ _ _ fun x hx => hs o x rfl hx
  | asInteger o => exact hview _ _
  | asReal o => exact hview _ _
  | clone o =>
    simp only [numCall]
    split
    · exact hk
    · split
      · exact hk
      · exact hmake _ _
  | setBit o pos b =>
    simp only [numCall]
    split
    · exact hk
    · split
      · exact hk
      · split
        · exact hassign _ _ _ fun x hx => hs o x rfl hx
        · exact hk

/-- Likewise for more calls. -/
theorem numCalls_cell {w : NumWorld} {cs : List NumCall} {k : Nat} {v : NumCell} (hk : w.cells[k]? = some v)
    (hs : ∀ c ∈ cs, ∀ (o : Nat) (x : NumObj), setThrough c = some o → (numCalls w cs).1.objs[o]? = some x → x.cell ≠ k) :
    (numCalls w cs).1.cells[k]? = some v := by
  induction cs generalizing w with
  | nil => exact hk
  | cons c cs ih =>
    have e : numCalls w (c :: cs) = ((numCalls (numCall w c).1 cs).1, _) := rfl
    rw [e] at hs ⊢
    refine ih (numCall_cell hk ?_) (fun d hd => hs d (by simp [hd]))
    intro o x ho hx
    exact hs c (by simp) o x ho (numCalls_obj (numCall_obj hx))

/-- A call that gives an object a value. -/
theorem gives_cell {w : NumWorld} {h : List (NumCall × NumAnswer)} (inv : NumInv w h) {c : NumCall} {o : Nat} {v : NumVal}
    (g : GivesNumber o v (c, (numCall w c).2)) :
    ∃ (x : NumObj) (p : Nat), (numCall w c).1.objs[o]? = some x ∧ (numCall w c).1.cells[x.cell]? = some ⟨v, p⟩ := by
  have hassign : ∀ i u, (w.assign i o u).2 = .done →
      ∃ (x : NumObj) (p : Nat), (w.assign i o u).1.objs[o]? = some x ∧ (w.assign i o u).1.cells[x.cell]? = some ⟨u, p⟩ := by
    intro i u hd
    unfold NumWorld.assign at hd ⊢
    cases hx : w.objs[o]? with
    | none => rw [hx] at hd; cases hd
    | some x =>
      rw [hx] at hd
      dsimp only at hd ⊢
      split at hd
      · rename_i hi
        rw [if_pos hi]
        have hv := inv.valid o x hx
        refine ⟨x, (w.cells[x.cell]'hv).precision, hx, ?_⟩
        dsimp only
        rw [List.getElem?_modify, List.getElem?_eq_getElem hv]; simp
      · cases hd
  generalize he : (c, (numCall w c).2) = e at g
  cases g with
  | newInteger =>
    injection he with e1 e2; subst e1
    simp only [numCall, NumWorld.make] at e2 ⊢
    injection e2 with e2; subst e2
    exact ⟨⟨true, w.cells.length⟩, 0, by simp, by simp⟩
  | newReal m k p =>
    injection he with e1 e2; subst e1
    simp only [numCall, NumWorld.make] at e2 ⊢
    injection e2 with e2; subst e2
    exact ⟨⟨false, w.cells.length⟩, p, by simp, by simp⟩
  | setInteger u => injection he with e1 e2; subst e1; exact hassign _ _ e2
  | setUnsigned u => injection he with e1 e2; subst e1; exact hassign _ _ e2
  | setReal m k => injection he with e1 e2; subst e1; exact hassign _ _ e2

/-! ### Texts -/

theorem pow_split {k p : Nat} (h : k ≤ p) : 10 ^ p = 10 ^ k * 10 ^ (p - k) := by
  rw [← pow_add]; congr 1; omega

/-- Writing with enough digits is writing exactly. -/
theorem fixedText_exact (m : Int) {k p : Nat} (h : k ≤ p) : fixedText m k p = writeReal (m * (10 ^ (p - k) : Nat)) p := by
  have e : (m * (10 ^ (p - k) : Nat) : Int).natAbs = m.natAbs * 10 ^ (p - k) := by rw [Int.natAbs_mul]; simp
  have s : (m * (10 ^ (p - k) : Nat) : Int) < 0 ↔ m < 0 := by
    have : (0 : Int) < (10 ^ (p - k) : Nat) := by exact_mod_cast Nat.pow_pos (by decide)
    constructor
    · intro h; by_contra hm; exact absurd h (not_lt.2 (mul_nonneg (not_lt.1 hm) this.le))
    · intro h; exact mul_neg_of_neg_of_pos h this
  unfold fixedText writeReal
  rw [if_pos h, e]
  simp only [s]

/-- The signed number a rounded text shows. -/
def roundedNumber (m : Int) (d : Nat) : Int := if m < 0 then -(roundOff m.natAbs d : Int) else roundOff m.natAbs d

/-- Digits with a point and perhaps a sign. -/
theorem pointText (neg : Prop) [Decidable neg] (a p : Nat) :
    RealText (if neg then -(a : Int) else a) p ((if neg then [0x2D] else []) ++ natDec (a / 10 ^ p) ++ 0x2E :: fracDigits p a []) := by
  obtain ⟨h1, h2, h3⟩ := natDec_facts (a / 10 ^ p)
  obtain ⟨ds, e, hl, hd, hv⟩ := fracDigits_facts p a []
  rw [List.append_nil] at e
  have hval : digitsVal (natDec (a / 10 ^ p) ++ ds) = a := by
    unfold digitsVal
    rw [digitsVal_append, foldl_digits_from]
    show digitsVal _ * _ + _ = _
    rw [h3, hl, hv, Nat.mul_comm]
    exact Nat.div_add_mod _ _
  refine ⟨natDec (a / 10 ^ p), ds, by simp [h1], ?_, hl.symm, ?_⟩
  · intro c hc
    rcases List.mem_append.1 hc with hc | hc
    · exact h2 c hc
    · exact hd c hc
  · rw [e, hval]
    by_cases hn : neg
    · simp only [if_pos hn]; exact .inr (.inr ⟨rfl, trivial⟩)
    · simp only [if_neg hn]; exact .inl ⟨rfl, trivial⟩

theorem fixedText_rounded (m : Int) {k p : Nat} (h : p < k) : RealText (roundedNumber m (k - p)) p (fixedText m k p) := by
  have t := pointText (m < 0) (roundOff m.natAbs (k - p)) p
  unfold fixedText roundedNumber
  rw [if_neg (show ¬ k ≤ p by omega)]
  exact t

theorem roundOff_near (a d : Nat) : 2 * (roundOff a d * 10 ^ d) ≤ 2 * a + 10 ^ d ∧ 2 * a ≤ 2 * (roundOff a d * 10 ^ d) + 10 ^ d := by
  have e := Nat.div_add_mod a (10 ^ d)
  have l := Nat.mod_lt a (Nat.pow_pos (n := d) (show 0 < 10 by decide))
  unfold roundOff
  generalize a / 10 ^ d = q at *
  generalize a % 10 ^ d = r at *
  generalize 10 ^ d = t at *
  have e' : q * t + r = a := by rw [← e, Nat.mul_comm]
  dsimp only
  split
  · rename_i c
    have : (q + 1) * t = q * t + t := by ring
    rw [this]; omega
  · rename_i c
    omega

theorem stripZeros_facts (m : Int) (k : Nat) : (stripZeros m k).1 * (10 ^ k : Nat) = m * (10 ^ (stripZeros m k).2 : Nat) ∧
    (stripZeros m k).2 ≤ k := by
  induction k generalizing m with
  | zero => exact ⟨rfl, Nat.le_refl _⟩
  | succ k ih =>
    rw [stripZeros]
    split
    · rename_i c
      obtain ⟨e, l⟩ := ih (m / 10)
      refine ⟨?_, by omega⟩
      have hm : m = 10 * (m / 10) := by omega
      rw [show ((10 ^ (k + 1) : Nat) : Int) = (10 ^ k : Nat) * 10 by push_cast; ring, ← mul_assoc, e]
      generalize ((10 ^ (stripZeros (m / 10) k).2 : Nat) : Int) = t
      calc m / 10 * t * 10 = (10 * (m / 10)) * t := by ring
        _ = m * t := by rw [← hm]
    · exact ⟨rfl, Nat.le_refl _⟩

/-- Texts of numbers have no letter. -/
theorem NumberText_bytes {m : Int} {k : Nat} {s : Bytes} (h : NumberText m k s) : ∀ c ∈ s, c ≠ 0x65 := by
  have dig : ∀ c : Byte, IsDigit c → c ≠ 0x65 := by
    intro c hc e; subst e; simp [IsDigit] at hc
  obtain ⟨m', k', h | h, _⟩ := h
  · obtain ⟨⟨ds, _, hd, c | c | c⟩, _⟩ := h <;> obtain ⟨rfl, _⟩ := c <;> intro c hc
    · exact dig c (hd c hc)
    · rcases List.mem_cons.1 hc with rfl | hc
      · decide
      · exact dig c (hd c hc)
    · rcases List.mem_cons.1 hc with rfl | hc
      · decide
      · exact dig c (hd c hc)
  · obtain ⟨ip, fp, _, hd, _, c⟩ := h
    have body : ∀ c ∈ ip ++ 46 :: fp, c ≠ 0x65 := by
      intro c hc
      rcases List.mem_append.1 hc with hc | hc
      · exact dig c (hd c (List.mem_append_left _ hc))
      · rcases List.mem_cons.1 hc with rfl | hc
        · decide
        · exact dig c (hd c (List.mem_append_right _ hc))
    rcases c with c | c | c <;> obtain ⟨rfl, _⟩ := c <;> intro c hc
    · exact body c hc
    · rcases List.mem_cons.1 hc with rfl | hc
      · decide
      · exact body c hc
    · rcases List.mem_cons.1 hc with rfl | hc
      · decide
      · exact body c hc

/-- The number without zeros at its end has the same size. -/
theorem stripZeros_abs (m : Int) (k : Nat) : (stripZeros m k).1.natAbs * 10 ^ k = m.natAbs * 10 ^ (stripZeros m k).2 := by
  have e := congrArg Int.natAbs (stripZeros_facts m k).1
  rw [Int.natAbs_mul, Int.natAbs_mul, Int.natAbs_natCast, Int.natAbs_natCast] at e
  exact e

theorem stripZeros_great (m : Int) (k : Nat) : 10 ^ (16 + (stripZeros m k).2) ≤ (stripZeros m k).1.natAbs ↔ 10 ^ (16 + k) ≤ m.natAbs := by
  have e := stripZeros_abs m k
  generalize (stripZeros m k).1.natAbs = a at *
  generalize (stripZeros m k).2 = j at *
  have h1 : 0 < 10 ^ k := Nat.pow_pos (by decide)
  have h2 : 0 < 10 ^ j := Nat.pow_pos (by decide)
  rw [pow_add, pow_add]
  constructor
  · intro h
    apply Nat.le_of_mul_le_mul_right _ h2
    calc 10 ^ 16 * 10 ^ k * 10 ^ j = 10 ^ 16 * 10 ^ j * 10 ^ k := by ring
      _ ≤ a * 10 ^ k := Nat.mul_le_mul_right _ h
      _ = _ := e
  · intro h
    apply Nat.le_of_mul_le_mul_right _ h1
    calc 10 ^ 16 * 10 ^ j * 10 ^ k = 10 ^ 16 * 10 ^ k * 10 ^ j := by ring
      _ ≤ m.natAbs * 10 ^ j := Nat.mul_le_mul_right _ h
      _ = _ := e.symm

theorem stripZeros_small (m : Int) (k : Nat) :
    ((stripZeros m k).1 ≠ 0 ∧ (stripZeros m k).1.natAbs * 10 ^ 4 < 10 ^ (stripZeros m k).2) ↔ (m ≠ 0 ∧ m.natAbs * 10 ^ 4 < 10 ^ k) := by
  have e := stripZeros_abs m k
  have h1 : 0 < 10 ^ k := Nat.pow_pos (by decide)
  have h2 : 0 < 10 ^ (stripZeros m k).2 := Nat.pow_pos (by decide)
  have z : (stripZeros m k).1 = 0 ↔ m = 0 := by
    rw [← Int.natAbs_eq_zero, ← Int.natAbs_eq_zero]
    constructor
    · intro h; rw [h, Nat.zero_mul] at e
      exact (Nat.mul_eq_zero.1 e.symm).resolve_right (by omega)
    · intro h; rw [h, Nat.zero_mul] at e
      exact (Nat.mul_eq_zero.1 e).resolve_right (by omega)
  rw [ne_eq, z]
  refine and_congr_right fun _ => ?_
  generalize (stripZeros m k).1.natAbs = a at *
  generalize (stripZeros m k).2 = j at *
  constructor
  · intro h
    apply Nat.lt_of_mul_lt_mul_right (a := 10 ^ j)
    calc m.natAbs * 10 ^ 4 * 10 ^ j = m.natAbs * 10 ^ j * 10 ^ 4 := by ring
      _ = a * 10 ^ k * 10 ^ 4 := by rw [e]
      _ = a * 10 ^ 4 * 10 ^ k := by ring
      _ < 10 ^ j * 10 ^ k := Nat.mul_lt_mul_of_pos_right h h1
      _ = _ := by ring
  · intro h
    apply Nat.lt_of_mul_lt_mul_right (a := 10 ^ k)
    calc a * 10 ^ 4 * 10 ^ k = a * 10 ^ k * 10 ^ 4 := by ring
      _ = m.natAbs * 10 ^ j * 10 ^ 4 := by rw [e]
      _ = m.natAbs * 10 ^ 4 * 10 ^ j := by ring
      _ < 10 ^ k * 10 ^ j := Nat.mul_lt_mul_of_pos_right h h2
      _ = _ := by ring

/-- Numbers of common size are written as numbers of PDF. -/
theorem shortText_common (m : Int) (k : Nat) (h1 : m.natAbs < 10 ^ (16 + k)) (h2 : m = 0 ∨ 10 ^ k ≤ m.natAbs * 10 ^ 4) :
    NumberText m k (shortText m k) := by
  have c : ¬ (10 ^ (16 + (stripZeros m k).2) ≤ (stripZeros m k).1.natAbs ∨
      ((stripZeros m k).1 ≠ 0 ∧ (stripZeros m k).1.natAbs * 10 ^ 4 < 10 ^ (stripZeros m k).2)) := by
    rw [stripZeros_great, stripZeros_small]; omega
  unfold shortText
  dsimp only
  rw [if_neg c]
  refine ⟨_, _, ?_, (stripZeros_facts m k).1⟩
  generalize (stripZeros m k).1 = a
  generalize (stripZeros m k).2 = j
  by_cases hj : j = 0
  · rw [if_pos hj]
    left
    refine ⟨?_, hj⟩
    have t := intDec_text a
    unfold intDec at t
    by_cases ha : a < 0
    · rw [if_pos ha] at t ⊢; exact t
    · rw [if_neg ha] at t ⊢; exact t
  · rw [if_neg hj]
    right
    have t := pointText (a < 0) a.natAbs j
    rw [List.append_assoc] at t
    have e : (if a < 0 then -(a.natAbs : Int) else a.natAbs) = a := by split <;> omega
    rwa [e] at t

/-- Other numbers are not. -/
theorem shortText_exponent (m : Int) (k : Nat) (h : 10 ^ (16 + k) ≤ m.natAbs ∨ (m ≠ 0 ∧ m.natAbs * 10 ^ 4 < 10 ^ k)) :
    0x65 ∈ shortText m k := by
  rw [← stripZeros_great, ← stripZeros_small] at h
  unfold shortText
  dsimp only
  rw [if_pos h]
  unfold exponentText
  simp

/-! ### Bits -/

theorem bit_facts (v : Int) (pos q : Nat) :
    (v / 2 ^ pos % 2 = 0 → bitAt (v + 2 ^ pos) q = if q = pos then true else bitAt v q) ∧
    (v / 2 ^ pos % 2 = 1 → bitAt (v - 2 ^ pos) q = if q = pos then false else bitAt v q) := by
  have key : ∀ (A L : Int) (b : Int), 0 ≤ L → L < 2 ^ pos → (b = 0 ∨ b = 1) →
      bitAt (2 ^ pos * (2 * A + b) + L) q =
        if q = pos then decide (b = 1) else if q < pos then decide (L / 2 ^ q % 2 = 1) else decide (A / 2 ^ (q - pos - 1) % 2 = 1) := by
    intro A L b h0 h1 hb
    have hp : (0 : Int) < 2 ^ pos := by positivity
    have hq : (2 ^ pos * (2 * A + b) + L) / 2 ^ pos = 2 * A + b := by
      rw [Int.add_comm, Int.add_mul_ediv_left _ _ hp.ne', Int.ediv_eq_zero_of_lt h0 h1, zero_add]
    unfold bitAt
    rcases Nat.lt_trichotomy q pos with c | c | c
    · rw [if_neg (by omega), if_pos c]
      obtain ⟨d, rfl⟩ : ∃ d, pos = q + 1 + d := ⟨pos - q - 1, by omega⟩
      have hq' : (0 : Int) < 2 ^ q := by positivity
      have e : (2 ^ (q + 1 + d) * (2 * A + b) + L : Int) = L + 2 ^ q * (2 * (2 ^ d * (2 * A + b))) := by
        rw [pow_add, pow_add]; ring
      rw [e, Int.add_mul_ediv_left _ _ hq'.ne']
      congr 1
      rw [eq_iff_iff]
      generalize L / 2 ^ q = y
      generalize 2 ^ d * (2 * A + b) = z
      omega
    · subst c
      rw [if_pos rfl, hq]
      congr 1
      rw [eq_iff_iff]
      omega
    · rw [if_neg (by omega), if_neg (by omega)]
      have e : (2 : Int) ^ q = 2 ^ pos * (2 * 2 ^ (q - pos - 1)) := by
        rw [show q = pos + 1 + (q - pos - 1) by omega, pow_add, pow_add]
        rw [show pos + 1 + (q - pos - 1) - pos - 1 = q - pos - 1 by omega]; ring
      rw [e, ← Int.ediv_ediv_of_nonneg hp.le, hq, ← Int.ediv_ediv_of_nonneg (by decide)]
      rw [show (2 * A + b) / 2 = A by omega]
  have hp : (0 : Int) < 2 ^ pos := by positivity
  have hv := Int.mul_ediv_add_emod v (2 ^ pos)
  have l0 := Int.emod_nonneg v hp.ne'
  have l1 := Int.emod_lt_of_pos v hp
  constructor
  · intro hb
    have e0 : v = 2 ^ pos * (2 * (v / 2 ^ pos / 2) + 0) + v % 2 ^ pos := by
      rw [show 2 * (v / 2 ^ pos / 2) + 0 = v / 2 ^ pos by omega, hv]
    have e1 : v + 2 ^ pos = 2 ^ pos * (2 * (v / 2 ^ pos / 2) + 1) + v % 2 ^ pos := by
      conv_lhs => rw [e0]
      ring
    rw [e1, key _ _ _ l0 l1 (.inr rfl)]
    conv_rhs => rw [e0, key _ _ _ l0 l1 (.inl rfl)]
    by_cases c : q = pos <;> simp [c]
  · intro hb
    have e0 : v = 2 ^ pos * (2 * (v / 2 ^ pos / 2) + 1) + v % 2 ^ pos := by
      rw [show 2 * (v / 2 ^ pos / 2) + 1 = v / 2 ^ pos by omega, hv]
    have e1 : v - 2 ^ pos = 2 ^ pos * (2 * (v / 2 ^ pos / 2) + 0) + v % 2 ^ pos := by
      conv_lhs => rw [e0]
      ring
    rw [e1, key _ _ _ l0 l1 (.inl rfl)]
    conv_rhs => rw [e0, key _ _ _ l0 l1 (.inr rfl)]
    by_cases c : q = pos <;> simp [c]

end VPdf
