import Verif.Props.SecureSave
import Verif.Spec.SecureCopy
import Verif.Lemmas.CopyObjects

/-! Lemmas on copying objects between documents that may be encrypted. -/
namespace VPdf
open Spec (ReadAs ItemsReadAs EntriesReadAs StringReads SecHolds Scalar Uniform UniformItems UniformEntries)

section Copies

variable {k : Crypto} {F G : SecureFile} {n g n' g' : Nat} {r r' : Bytes} (f : ObjRef → ObjRef)

theorem getValue_reads {s : SecString} {v : Bytes} (h : s.getValue k F n g r = .ok v) (w : Bytes) :
    StringReads k F n g r s w ↔ w = v := by
  unfold SecString.getValue at h
  unfold StringReads
  cases hs : s.value with
  | some x => rw [hs] at h; cases h; simp [eq_comm]
  | none =>
    rw [hs] at h
    dsimp only at h
    simp only [reduceCtorEq, false_or, true_and, h, Except.ok.injEq]
    exact eq_comm

mutual

/-- What is read from the copy is what was read from the original, but for the references. -/
theorem copy_reads : ∀ {o o' : SecObj}, forceObj k F n g r o = .ok o' →
    ∃ v, ReadAs k F n g r o v ∧ ∀ w, ReadAs k G n' g' r' (relinkObj f o') w ↔ w = mapRefs f v
  | .other o, o', h => by
    cases Except.ok.inj h
    refine ⟨o, .other o, fun w => ⟨?_, ?_⟩⟩
    · intro h; cases h; rfl
    · rintro rfl; exact .other _
  | .str s, o', h => by
    unfold forceObj at h
    obtain ⟨v, hv, h⟩ := except_bind_ok h
    cases Except.ok.inj h
    have h1 : StringReads k F n g r s v := (getValue_reads hv v).mpr rfl
    have h2 : ∀ w, StringReads k G n' g' r' { s with value := some v } w ↔ w = v := by
      intro w; exact getValue_reads (k := k) (F := G) (n := n') (g := g') (r := r') rfl w
    cases hx : s.hex with
    | false =>
      refine ⟨.lit v, .lit hx h1, fun w => ⟨?_, ?_⟩⟩
      · intro h
        cases h with
        | lit _ h => rw [(h2 _).mp h]; rfl
        | hex h _ => cases h
      · rintro rfl; exact .lit rfl ((h2 _).mpr rfl)
    | true =>
      refine ⟨.hex v, .hex hx h1, fun w => ⟨?_, ?_⟩⟩
      · intro h
        cases h with
        | lit h _ => cases h
        | hex _ h => rw [(h2 _).mp h]; rfl
      · rintro rfl; exact .hex rfl ((h2 _).mpr rfl)
  | .arr items, o', h => by
    unfold forceObj at h
    obtain ⟨xs, hx, h⟩ := except_bind_ok h
    cases Except.ok.inj h
    obtain ⟨ws, h1, h2⟩ := copyItems_reads hx
    refine ⟨.arr ws, .arr h1, fun w => ⟨?_, ?_⟩⟩
    · intro h; cases h with | arr h => rw [(h2 _).mp h]; rfl
    · rintro rfl; exact .arr ((h2 _).mpr rfl)
  | .dict entries, o', h => by
    unfold forceObj at h
    obtain ⟨xs, hx, h⟩ := except_bind_ok h
    cases Except.ok.inj h
    obtain ⟨ws, h1, h2⟩ := copyEntries_reads hx
    refine ⟨.dict ws, .dict h1, fun w => ⟨?_, ?_⟩⟩
    · intro h; cases h with | dict h => rw [(h2 _).mp h]; rfl
    · rintro rfl; exact .dict ((h2 _).mpr rfl)

theorem copyItems_reads : ∀ {os os' : List SecObj}, forceItems k F n g r os = .ok os' →
    ∃ vs, ItemsReadAs k F n g r os vs ∧ ∀ ws, ItemsReadAs k G n' g' r' (relinkItems f os') ws ↔ ws = mapRefsItems f vs
  | [], os', h => by
    cases Except.ok.inj h
    refine ⟨[], .nil, fun w => ⟨?_, ?_⟩⟩
    · intro h; cases h; rfl
    · rintro rfl; exact .nil
  | o :: os, os', h => by
    unfold forceItems at h
    obtain ⟨x, hx, h⟩ := except_bind_ok h
    obtain ⟨xs, hxs, h⟩ := except_bind_ok h
    cases Except.ok.inj h
    obtain ⟨v, h1, h2⟩ := copy_reads hx
    obtain ⟨vs, h3, h4⟩ := copyItems_reads hxs
    refine ⟨v :: vs, .cons h1 h3, fun w => ⟨?_, ?_⟩⟩
    · intro h; cases h with | cons a b => rw [(h2 _).mp a, (h4 _).mp b]; rfl
    · rintro rfl; exact .cons ((h2 _).mpr rfl) ((h4 _).mpr rfl)

theorem copyEntries_reads : ∀ {es es' : List (Bytes × SecObj)}, forceEntries k F n g r es = .ok es' →
    ∃ d, EntriesReadAs k F n g r es d ∧ ∀ w, EntriesReadAs k G n' g' r' (relinkEntries f es') w ↔ w = mapRefsEntries f d
  | [], es', h => by
    cases Except.ok.inj h
    refine ⟨[], .nil, fun w => ⟨?_, ?_⟩⟩
    · intro h; cases h; rfl
    · rintro rfl; exact .nil
  | (key, o) :: es, es', h => by
    unfold forceEntries at h
    obtain ⟨x, hx, h⟩ := except_bind_ok h
    obtain ⟨xs, hxs, h⟩ := except_bind_ok h
    cases Except.ok.inj h
    obtain ⟨v, h1, h2⟩ := copy_reads hx
    obtain ⟨vs, h3, h4⟩ := copyEntries_reads hxs
    refine ⟨(key, v) :: vs, .cons h1 h3, fun w => ⟨?_, ?_⟩⟩
    · intro h; cases h with | cons a b => rw [(h2 _).mp a, (h4 _).mp b]; rfl
    · rintro rfl; exact .cons ((h2 _).mpr rfl) ((h4 _).mpr rfl)

end

mutual

/-- Copies keep the flag that exempts them from encryption. -/
theorem copy_uniform {e : Bool} : ∀ {o o' : SecObj}, Uniform e o → forceObj k F n g r o = .ok o' → Uniform e (relinkObj f o')
  | .other o, o', .other hs, h => by
    cases Except.ok.inj h
    exact .other (by cases o <;> exact hs)
  | .str s, o', .str hs, h => by
    unfold forceObj at h
    obtain ⟨v, hv, h⟩ := except_bind_ok h
    cases Except.ok.inj h
    exact .str hs
  | .arr items, o', .arr hs, h => by
    unfold forceObj at h
    obtain ⟨xs, hx, h⟩ := except_bind_ok h
    cases Except.ok.inj h
    exact .arr (copyItems_uniform hs hx)
  | .dict entries, o', .dict hs, h => by
    unfold forceObj at h
    obtain ⟨xs, hx, h⟩ := except_bind_ok h
    cases Except.ok.inj h
    exact .dict (copyEntries_uniform hs hx)

theorem copyItems_uniform {e : Bool} : ∀ {os os' : List SecObj}, UniformItems e os → forceItems k F n g r os = .ok os' →
    UniformItems e (relinkItems f os')
  | [], os', .nil, h => by
    cases Except.ok.inj h
    exact .nil
  | o :: os, os', .cons a b, h => by
    unfold forceItems at h
    obtain ⟨x, hx, h⟩ := except_bind_ok h
    obtain ⟨xs, hxs, h⟩ := except_bind_ok h
    cases Except.ok.inj h
    exact .cons (copy_uniform a hx) (copyItems_uniform b hxs)

theorem copyEntries_uniform {e : Bool} : ∀ {es es' : List (Bytes × SecObj)}, UniformEntries e es →
    forceEntries k F n g r es = .ok es' → UniformEntries e (relinkEntries f es')
  | [], es', .nil, h => by
    cases Except.ok.inj h
    exact .nil
  | (key, o) :: es, es', .cons a b, h => by
    unfold forceEntries at h
    obtain ⟨x, hx, h⟩ := except_bind_ok h
    obtain ⟨xs, hxs, h⟩ := except_bind_ok h
    cases Except.ok.inj h
    exact .cons (copy_uniform a hx) (copyEntries_uniform b hxs)

end

theorem Spec.StringReads.unique {s : SecString} {v w : Bytes} (a : StringReads k F n g r s v) (b : StringReads k F n g r s w) :
    v = w := by
  rcases a with a | ⟨a, a'⟩ <;> rcases b with b | ⟨b, b'⟩
  · exact Option.some.inj (a.symm.trans b)
  · rw [a] at b; cases b
  · rw [a] at b; cases b
  · exact Except.ok.inj (a'.symm.trans b')

mutual

theorem Spec.ReadAs.unique : ∀ {o : SecObj} {v w : Obj}, ReadAs k F n g r o v → ReadAs k F n g r o w → v = w
  | .other _, _, _, .other _, .other _ => rfl
  | .str s, _, _, .lit hx a, .lit _ b => by rw [a.unique b]
  | .str s, _, _, .hex hx a, .hex _ b => by rw [a.unique b]
  | .str s, _, _, .lit hx a, .hex hy b => by rw [hx] at hy; cases hy
  | .str s, _, _, .hex hx a, .lit hy b => by rw [hx] at hy; cases hy
  | .arr _, _, _, .arr a, .arr b => by rw [a.unique b]
  | .dict _, _, _, .dict a, .dict b => by rw [a.unique b]

theorem Spec.ItemsReadAs.unique : ∀ {o : List SecObj} {v w : List Obj}, ItemsReadAs k F n g r o v → ItemsReadAs k F n g r o w → v = w
  | [], _, _, .nil, .nil => rfl
  | _ :: _, _, _, .cons a b, .cons a' b' => by rw [a.unique a', b.unique b']

theorem Spec.EntriesReadAs.unique : ∀ {o : List (Bytes × SecObj)} {v w : Dict}, EntriesReadAs k F n g r o v →
    EntriesReadAs k F n g r o w → v = w
  | [], _, _, .nil, .nil => rfl
  | _ :: _, _, _, .cons a b, .cons a' b' => by rw [a.unique a', b.unique b']

end

end Copies

theorem addSecEntry_mem (e : SecEntry) : ∀ (l : List SecEntry) (x : SecEntry), x ∈ addSecEntry e l ↔ x = e ∨ x ∈ l
  | [], x => by simp [addSecEntry]
  | y :: l, x => by
    unfold addSecEntry
    split
    · simp
    · simp only [List.mem_cons, addSecEntry_mem e l x]
      tauto

theorem addAll_mem (es : List SecEntry) : ∀ (l : List SecEntry) (x : SecEntry),
    x ∈ es.foldl (fun l e => addSecEntry e l) l ↔ x ∈ es ∨ x ∈ l := by
  induction es with
  | nil => simp
  | cons e es ih =>
    intro l x
    rw [List.foldl_cons, ih, addSecEntry_mem]
    simp only [List.mem_cons]
    tauto

theorem adoptObjects_mem {k : Crypto} {F : SecureFile} {rnd : Bytes} {f : ObjRef → ObjRef} {src : ObjRef → SecTop} :
    ∀ {m : List (ObjRef × ObjRef)} {es : List SecEntry}, adoptObjects k F rnd f src m = .ok es → ∀ (q c : ObjRef), (q, c) ∈ m →
      ∃ t, copyInto k F q.1 q.2 rnd f (src q) = .ok t ∧ ⟨c.1, c.2, some t⟩ ∈ es
  | [], _, _ => nofun
  | (p, d) :: m, es, h => by
    unfold adoptObjects at h
    obtain ⟨t, ht, h⟩ := except_bind_ok h
    obtain ⟨es', h', h⟩ := except_bind_ok h
    cases Except.ok.inj h
    intro q c hm
    rcases List.mem_cons.mp hm with hm | hm
    · cases hm; exact ⟨t, ht, List.mem_cons_self ..⟩
    · obtain ⟨t', h1, h2⟩ := adoptObjects_mem h' q c hm
      exact ⟨t', h1, List.mem_cons_of_mem _ h2⟩

/-- The copies are in the document. -/
theorem adoptObjects_target {k : Crypto} {F : SecureFile} {rnd : Bytes} {f : ObjRef → ObjRef} {src : ObjRef → SecTop} :
    ∀ {m : List (ObjRef × ObjRef)} {es : List SecEntry}, adoptObjects k F rnd f src m = .ok es → ∀ e ∈ es, (e.num, e.gen) ∈ m.map (·.2)
  | [], es, h => by cases Except.ok.inj h; nofun
  | (p, d) :: m, es, h => by
    unfold adoptObjects at h
    obtain ⟨t, ht, h⟩ := except_bind_ok h
    obtain ⟨es', h', h⟩ := except_bind_ok h
    cases Except.ok.inj h
    intro e hm
    rcases List.mem_cons.mp hm with hm | hm
    · subst hm; exact List.mem_cons.mpr (.inl rfl)
    · exact List.mem_cons.mpr (.inr (adoptObjects_target h' e hm))

/-- Objects of the destination other than the copies. -/
theorem adoptInto_others {k : Crypto} {F : SecureFile} {rnd : Bytes} {m : List (ObjRef × ObjRef)} {src : ObjRef → SecTop}
    {dst doc : SecDoc} (h : adoptInto k F rnd m src dst = .ok doc) {n g : Nat} (hm : (n, g) ∉ m.map (·.2)) (t : SecTop) :
    SecHolds doc.sections n g t ↔ SecHolds dst.sections n g t := by
  unfold adoptInto at h
  obtain ⟨es, he, h⟩ := except_bind_ok h
  cases hs : dst.sections with
  | nil => rw [hs] at h; cases h
  | cons s ss =>
    rw [hs] at h
    cases Except.ok.inj h
    have hn : ∀ e ∈ es, ¬ (e.num = n ∧ e.gen = g) := by
      rintro e h1 ⟨h2, h3⟩
      have := adoptObjects_target he e h1
      rw [h2, h3] at this
      exact hm this
    constructor
    · intro h
      cases h with
      | here h =>
        rcases (addAll_mem _ _ _).mp h with h | h
        · exact absurd ⟨rfl, rfl⟩ (hn _ h)
        · exact .here h
      | older h1 h2 => exact .older (fun e h => h1 e ((addAll_mem _ _ _).mpr (.inr h))) h2
    · intro h
      cases h with
      | here h => exact .here ((addAll_mem _ _ _).mpr (.inr h))
      | older h1 h2 =>
        refine .older (fun e h => ?_) h2
        rcases (addAll_mem _ _ _).mp h with h | h
        · exact hn e h
        · exact h1 e h

theorem adoptInto_holds {k : Crypto} {F : SecureFile} {rnd : Bytes} {m : List (ObjRef × ObjRef)} {src : ObjRef → SecTop}
    {dst doc : SecDoc} (h : adoptInto k F rnd m src dst = .ok doc) {q c : ObjRef} (hm : (q, c) ∈ m) :
    doc.file = dst.file.adopt m ∧ doc.encryptionDirty = dst.encryptionDirty ∧
    ∃ t, copyInto k F q.1 q.2 rnd (newReference m) (src q) = .ok t ∧ SecHolds doc.sections c.1 c.2 t := by
  unfold adoptInto at h
  obtain ⟨es, he, h⟩ := except_bind_ok h
  obtain ⟨t, h1, h2⟩ := adoptObjects_mem he q c hm
  cases hs : dst.sections with
  | nil => rw [hs] at h; cases h
  | cons s ss =>
    rw [hs] at h
    cases Except.ok.inj h
    exact ⟨rfl, rfl, t, h1, .here ((addAll_mem _ _ _).mpr (.inl h2))⟩


mutual

/-- Changing the references of an object makes a copy of it. -/
theorem mapRefs_copied (m : List (ObjRef × ObjRef)) : ∀ v : Obj, Spec.CopiedAs (Spec.Renumbered m) v (mapRefs (newReference m) v)
  | .lit _ => .lit _
  | .hex _ => .hex _
  | .arr l => .arr (mapRefs_copiedItems m l)
  | .dict l => .dict (mapRefs_copiedEntries m l)
  | .null => .value trivial nofun
  | .bool _ => .value trivial nofun
  | .int _ => .value trivial nofun
  | .real _ _ => .value trivial nofun
  | .name _ => .value trivial nofun
  | .ref n g => by
    refine .ref (q := (n, g)) (c := newReference m (n, g)) ?_
    unfold newReference
    cases h : copyOf m (n, g) with
    | some c => exact .inl (copyOf_mem h)
    | none =>
      refine .inr ⟨rfl, ?_⟩
      intro x hx
      obtain ⟨y, hy⟩ := copyOf_some (m := m) (r := (n, g)) (List.mem_map.mpr ⟨_, hx, rfl⟩)
      rw [h] at hy
      cases hy

theorem mapRefs_copiedItems (m : List (ObjRef × ObjRef)) : ∀ v : List Obj,
    Spec.CopiedItems (Spec.Renumbered m) v (mapRefsItems (newReference m) v)
  | [] => .nil
  | o :: os => .cons (mapRefs_copied m o) (mapRefs_copiedItems m os)

theorem mapRefs_copiedEntries (m : List (ObjRef × ObjRef)) : ∀ v : Dict,
    Spec.CopiedEntries (Spec.Renumbered m) v (mapRefsEntries (newReference m) v)
  | [] => .nil
  | (_, o) :: os => .cons (mapRefs_copied m o) (mapRefs_copiedEntries m os)

end

/-- RC4 undoes itself. -/
theorem enciphered_twice {k : Crypto} (hk : Spec.Lawful k) (key : Bytes) (n g : Nat) (data : Bytes) :
    Spec.enciphered k key n g (Spec.enciphered k key n g data) = data := by
  have h : ∀ a b : Bytes, List.zipWith (· ^^^ ·) a b = xorBytes a b := fun _ _ => rfl
  unfold Spec.enciphered Spec.rc4
  simp only [h]
  have hl : ∀ q, (xorBytes data (k.keystream q data.length)).length = data.length := by
    intro q; rw [xorBytes_length, hk.keystream_length, Nat.min_self]
  rw [hl]
  exact xorBytes_cancel _ _ (by rw [hk.keystream_length])

theorem enciphered_length {k : Crypto} (hk : Spec.Lawful k) (key : Bytes) (n g : Nat) (data : Bytes) :
    (Spec.enciphered k key n g data).length = data.length := by
  have h : ∀ a b : Bytes, List.zipWith (· ^^^ ·) a b = xorBytes a b := fun _ _ => rfl
  unfold Spec.enciphered Spec.rc4
  simp only [h]
  rw [xorBytes_length, hk.keystream_length, Nat.min_self]

/-- Reading a stream that is not exempt and was not looked at. -/
theorem rc4_stream {k : Crypto} {F : SecureFile} {d : EncDict} {key : Bytes} (hF : F.dict = some d)
    {r : Bytes} (hkey : fileKey k F d r = .ok key) {alg : Algorithm} (ha : defaultAlgorithm d d.streamFilter = .ok alg)
    (hna : alg ≠ .aes) {n g : Nat} (hd : d.entry ≠ some (n, g)) (hent : F.entry n g = some false) {data : Bytes}
    (hl : data.length < 2147483647) : decryptStream k F n g r data = .ok (Spec.enciphered k key n g data) := by
  unfold decryptStream
  rw [hF]
  dsimp only
  rw [ha, ok_bind]
  unfold decryptAlg
  rw [hF]
  dsimp only
  by_cases h0 : data = []
  · rw [if_pos h0, h0]; simp [Spec.enciphered, Spec.rc4]
  · rw [if_neg h0, if_neg hd, hent]
    dsimp only
    rw [hkey, ok_bind, if_neg (fun h => hna h.2), if_neg hna, computeRC4_ok k (Nat.le_refl _) _ hl, List.take_length, C45_derivation]
    · simp [Spec.enciphered, Spec.rc4, xorBytes, hna]
    · rw [C45_derivation, List.length_take]; omega

mutual

theorem Spec.SameBut.mono {R R' : Bytes → Bytes → Prop} (hR : ∀ a b, R a b → R' a b) : ∀ {w v : Obj}, Spec.SameBut R w v →
    Spec.SameBut R' w v
  | _, _, .scalar h => .scalar h
  | _, _, .lit h => .lit (hR _ _ h)
  | _, _, .hex h => .hex (hR _ _ h)
  | _, _, .arr h => .arr (Spec.SameButItems.mono hR h)
  | _, _, .dict h => .dict (Spec.SameButEntries.mono hR h)

theorem Spec.SameButItems.mono {R R' : Bytes → Bytes → Prop} (hR : ∀ a b, R a b → R' a b) : ∀ {w v : List Obj},
    Spec.SameButItems R w v → Spec.SameButItems R' w v
  | _, _, .nil => .nil
  | _, _, .cons a b => .cons (Spec.SameBut.mono hR a) (Spec.SameButItems.mono hR b)

theorem Spec.SameButEntries.mono {R R' : Bytes → Bytes → Prop} (hR : ∀ a b, R a b → R' a b) : ∀ {w v : Dict},
    Spec.SameButEntries R w v → Spec.SameButEntries R' w v
  | _, _, .nil => .nil
  | _, _, .cons a b => .cons (Spec.SameBut.mono hR a) (Spec.SameButEntries.mono hR b)

end

theorem mapRefsEntries_keys (f : ObjRef → ObjRef) : ∀ d : Dict, (mapRefsEntries f d).map (·.1) = d.map (·.1)
  | [] => rfl
  | (k, _) :: d => congrArg (k :: ·) (mapRefsEntries_keys f d)

theorem mapRefsEntries_sorted (f : ObjRef → ObjRef) {d : Dict} (h : Spec.SortedKeys d) : Spec.SortedKeys (mapRefsEntries f d) := by
  unfold Spec.SortedKeys at h ⊢
  rw [← List.pairwise_map (f := fun x : Bytes × Obj => x.1) (R := fun a b => bytesLt a b = true)] at h ⊢
  rwa [mapRefsEntries_keys]

mutual

/-- A document that is not encrypted writes what the API reads. -/
theorem savedObj_readAs {k : Crypto} {F : SecureFile} (hF : F.dict = none) {n g : Nat} {r iv : Bytes} : ∀ {o : SecObj} {w : Obj},
    savedObj k F n g r iv o = .ok w → ReadAs k F n g r o w
  | .other o, w, h => by
    cases Except.ok.inj h; exact .other _
  | .str s, w, h => by
    unfold savedObj at h
    obtain ⟨v, hv, h⟩ := except_bind_ok h
    obtain ⟨x, hx, h1⟩ := except_bind_ok h
    have hx' : x = v := by
      unfold stringWrite at hx
      simp only [SecureFile.isEncrypted, hF, Option.isSome_none, Bool.and_false, Bool.false_eq_true, if_false] at hx
      exact (Except.ok.inj hx).symm
    subst hx'
    have hr := (getValue_reads hv x).mpr rfl
    have h' := Except.ok.inj h1
    subst h'
    cases hh : s.hex with
    | true => exact .hex hh hr
    | false => exact .lit hh hr
  | .arr items, w, h => by
    unfold savedObj at h
    obtain ⟨xs, hx, h⟩ := except_bind_ok h
    cases Except.ok.inj h
    exact .arr (savedItems_readAs hF hx)
  | .dict es, w, h => by
    unfold savedObj at h
    obtain ⟨xs, hx, h⟩ := except_bind_ok h
    cases Except.ok.inj h
    exact .dict (savedEntries_readAs hF hx)

theorem savedItems_readAs {k : Crypto} {F : SecureFile} (hF : F.dict = none) {n g : Nat} {r iv : Bytes} :
    ∀ {o : List SecObj} {w : List Obj}, savedItems k F n g r iv o = .ok w → ItemsReadAs k F n g r o w
  | [], w, h => by cases Except.ok.inj h; exact .nil
  | o :: os, w, h => by
    unfold savedItems at h
    obtain ⟨x, hx, h⟩ := except_bind_ok h
    obtain ⟨xs, hxs, h⟩ := except_bind_ok h
    cases Except.ok.inj h
    exact .cons (savedObj_readAs hF hx) (savedItems_readAs hF hxs)

theorem savedEntries_readAs {k : Crypto} {F : SecureFile} (hF : F.dict = none) {n g : Nat} {r iv : Bytes} :
    ∀ {o : List (Bytes × SecObj)} {w : Dict}, savedEntries k F n g r iv o = .ok w → EntriesReadAs k F n g r o w
  | [], w, h => by cases Except.ok.inj h; exact .nil
  | (key, o) :: os, w, h => by
    unfold savedEntries at h
    obtain ⟨x, hx, h⟩ := except_bind_ok h
    obtain ⟨xs, hxs, h⟩ := except_bind_ok h
    cases Except.ok.inj h
    exact .cons (savedObj_readAs hF hx) (savedEntries_readAs hF hxs)

end

end VPdf
