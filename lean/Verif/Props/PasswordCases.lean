import Verif.Props.Passwords

/-! # Concrete passwords, with real MD5 and RC4 (C46) -/
namespace VPdf

/-- What the library makes of these settings: a key of 64 bits. -/
def sampleShort : EncDict :=
  { standard := true, version := 2, revision := 3, length := some 64,
    owner := [56, 184, 209, 28, 197, 160, 185, 18, 176, 219, 113, 98, 192, 232, 33, 122, 48, 104, 154, 69, 176, 27, 30,
      68, 205, 102, 191, 186, 150, 70, 111, 115],
    user := [225, 240, 247, 175, 113, 114, 184, 40, 217, 190, 210, 236, 220, 245, 34, 90],
    permissions := -4, cryptFilters := none, streamFilter := none, stringFilter := none, entry := some (9, 0) }

theorem sampleShort_made : addEncryption sampleCrypto ⟨b! "owner", b! "user", .rc4, 64, -4⟩ (b! "id") (9, 0) [] =
    .ok (sampleShort, [228, 19, 10, 236, 64, 171, 30, 88]) := by decide +kernel

theorem sampleShort_owner : setPassword sampleCrypto sampleShort (b! "id") (b! "owner") [] = .ok none := by decide +kernel

/-- C46 fails for keys of revision 3 shorter than 128 bits: the owner password of this document of 64 bits, encrypted by
the library, is refused. -/
theorem C46_owner_counterexample :
    addEncryption sampleCrypto ⟨b! "owner", b! "user", .rc4, 64, -4⟩ (b! "id") (9, 0) [] =
        .ok (sampleShort, [228, 19, 10, 236, 64, 171, 30, 88]) ∧
      (∀ r, setPassword sampleCrypto sampleShort (b! "id") (b! "user") r = .ok (some [228, 19, 10, 236, 64, 171, 30, 88])) ∧
      setPassword sampleCrypto sampleShort (b! "id") (b! "owner") [] = .ok none := by
  refine And.intro sampleShort_made (And.intro ?_ sampleShort_owner)
  obtain ⟨d, key, h1, h2⟩ := C46_user_accepted_partial sampleCrypto_lawful ⟨b! "owner", b! "user", .rc4, 64, -4⟩ (9, 0) []
    (id := b! "id") (by decide) (by decide) (by decide) (.inl rfl) (by decide) (by decide)
  have e := Prod.mk.inj (Except.ok.inj (h1.symm.trans sampleShort_made))
  rw [← e.1, ← e.2]
  exact h2

/-- The entries another producer computes for a key of `8 * n` bits. -/
def sampleForeign (length : Int) (owner user : Bytes) : EncDict :=
  { standard := true, version := 2, revision := 3, length := some length, owner := owner, user := user,
    permissions := -4, cryptFilters := none, streamFilter := none, stringFilter := none, entry := none }

def sampleOwner8 : Bytes :=
  [128, 139, 104, 70, 224, 233, 154, 238, 59, 77, 236, 114, 92, 125, 235, 116, 152, 47, 198, 192, 181, 104, 145, 252,
   138, 221, 10, 40, 186, 140, 223, 226]

def sampleUser8 : Bytes := [72, 209, 86, 76, 158, 15, 46, 155, 251, 55, 210, 153, 24, 173, 159, 97]

/-- Documents of other producers with such keys are not opened: the right user password is refused here. -/
theorem C46_foreign_counterexample :
    sampleOwner8 = Spec.ownerEntry sampleCrypto (Spec.paddedPassword (b! "owner")) (Spec.paddedPassword (b! "user")) 3 8 ∧
      Spec.authenticates sampleCrypto (Spec.paddedPassword (b! "user")) sampleOwner8 sampleUser8 (b! "id") 4294967292 3 8 ∧
      setPassword sampleCrypto (sampleForeign 64 sampleOwner8 sampleUser8) (b! "id") (b! "user") [] = .ok none := by
  refine ⟨by decide +kernel, ?_, by decide +kernel⟩
  unfold Spec.authenticates
  decide +kernel

def sampleOwner16 : Bytes :=
  [11, 163, 131, 95, 136, 249, 3, 136, 231, 78, 84, 88, 65, 37, 206, 20, 43, 224, 222, 36, 198, 176, 211, 119, 70, 224,
   117, 184, 145, 117, 102, 113]

def sampleUser16 : Bytes := [105, 161, 192, 89, 2, 217, 202, 156, 85, 163, 140, 159, 36, 102, 238, 135]

/-- With keys of 128 bits `C46_standard_partial` applies to such a document and its owner password is accepted. -/
example : setPassword sampleCrypto (sampleForeign 128 sampleOwner16 sampleUser16) (b! "id") (b! "owner") [] =
    .ok (some (Spec.documentKey Spec.md5 (Spec.ownerOpened sampleCrypto (Spec.paddedPassword (b! "owner")) sampleOwner16 3 16)
      sampleOwner16 (b! "id") 4294967292 3 16)) := by
  have h := C46_standard_partial sampleCrypto_lawful (sampleForeign 128 sampleOwner16 sampleUser16) (id := b! "id")
    (password := b! "owner") [] (by decide) (by decide) rfl (by decide) (.inl (by decide)) (by decide) (by decide)
  refine h.1 ?_
  show Spec.authenticates sampleCrypto (Spec.ownerOpened sampleCrypto (Spec.paddedPassword (b! "owner")) sampleOwner16 3 16)
    sampleOwner16 sampleUser16 (b! "id") 4294967292 3 16
  have e : Spec.ownerOpened sampleCrypto (Spec.paddedPassword (b! "owner")) sampleOwner16 3 16 = Spec.paddedPassword (b! "user") := by
    decide +kernel
  rw [e]
  unfold Spec.authenticates
  decide +kernel

end VPdf
