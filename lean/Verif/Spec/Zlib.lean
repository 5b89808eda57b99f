import Verif.Model.Zlib

/-! # What zlib promises (zlib.h) -/
namespace VPdf.Spec

/-- A format of compressed data.  `Complete x y`: `x` is a complete compressed stream for `y`.  `Damaged x y`: in `x` an
error shows at its last byte, and what comes before decompresses to `y`. -/
structure Format where
  Complete : Bytes → Bytes → Prop
  Damaged : Bytes → Bytes → Prop
  nonempty : ∀ {x y}, Complete x y ∨ Damaged x y → x ≠ []

/-- Whether the stream ends well. -/
def Format.Ends (f : Format) (good : Bool) (x y : Bytes) : Prop := if good then f.Complete x y else f.Damaged x y

/-- The contract of `inflate`, for a state in which it has used `used` and written `written` (the relation `At`): it uses
as much input and writes as much output as possible, until the space is full, the input is used up, the stream ends, or the
error shows.  Bytes behind the end are not touched. -/
structure Inflates (f : Format) (Z : Inflater) where
  At : Z.σ → Bytes → Bytes → Prop
  start : At Z.start [] []
  step : ∀ {s : Z.σ} {good : Bool} {x y used written input : Bytes} {space : Nat}, f.Ends good x y →
    At s used written → used <+: x → written <+: y → 0 < space → (x <+: used ++ input ∨ used ++ input <+: x) →
    let r := Z.call s input space
    r.used ≤ input.length ∧ r.out.length ≤ space ∧ At r.state (used ++ input.take r.used) (written ++ r.out) ∧
      written ++ r.out <+: y ∧ used ++ input.take r.used <+: x ∧
      -- space is full
      (r.out.length = space ∧ (r.status = .ok ∨ r.status = .bufError ∨ r.status = .streamEnd) ∨
      -- input is used up
        r.out.length < space ∧ (used ++ input <+: x ∧ used ++ input ≠ x) ∧ r.used = input.length ∧ (r.status = .ok ∨ r.status = .bufError) ∨
      -- the stream ends
        good = true ∧ r.out.length < space ∧ written ++ r.out = y ∧ r.status = .streamEnd ∨
        good = false ∧ r.status = .dataError)

/-- The contract of `deflate`: likewise, and after `Z_FINISH` it returns `Z_STREAM_END` when all is written. `Finishing` holds
once `Z_FINISH` was given; `pending` decreases when output is written without using input. -/
structure Deflates (f : Format) (D : Deflater) where
  At : D.σ → Bytes → Bytes → Prop
  Finishing : D.σ → Bytes → Bytes → Prop
  pending : D.σ → Nat
  begin : ∀ {s used written}, At s used written → Finishing s used written
  start : At D.start [] []
  run : ∀ {s used written input space}, At s used written → 0 < space →
    let r := D.call s input space false
    At r.state (used ++ input.take r.used) (written ++ r.out) ∧ r.used ≤ input.length ∧
      (r.status = .ok ∨ r.status = .bufError) ∧
      (r.out.length = space ∧ (0 < r.used ∨ pending r.state < pending s) ∨ r.out.length < space ∧ r.used = input.length)
  finish : ∀ {s used written space}, Finishing s used written → 0 < space →
    let r := D.call s [] space true
    Finishing r.state used (written ++ r.out) ∧
      (r.out.length = space ∧ pending r.state < pending s ∧ (r.status = .ok ∨ r.status = .bufError ∨ r.status = .streamEnd) ∨
        r.out.length < space ∧ r.status = .streamEnd ∧ f.Complete (written ++ r.out) used)

end VPdf.Spec
