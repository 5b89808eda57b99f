import Verif.Spec.Pdf
/-
  The filters as the standards define them: ISO 32000-1 7.4.2 and 7.4.3, and the PNG specification (filter types).
-/
namespace VPdf.Spec

/-- The text without its white-space characters. -/
def strip (s : List UInt8) : List UInt8 := s.filter (fun c => !whiteSpace.contains c)

/-- The base-85 digits of `v`, `n` of them, most significant first. -/
def digits85 : Nat → Nat → List Nat
  | 0, _ => []
  | n + 1, v => digits85 n (v / 85) ++ [v % 85]

/-- Digits as the characters `!` (0) to `u` (84). -/
def chars85 (ds : List Nat) : List UInt8 := ds.map (fun d => UInt8.ofNat (33 + d))

/-- The 32-bit number of a group of up to four bytes, missing bytes being zero. -/
def group32 (g : List UInt8) : Nat :=
  (g.getD 0 0).toNat * 16777216 + (g.getD 1 0).toNat * 65536 + (g.getD 2 0).toNat * 256 + (g.getD 3 0).toNat

/-- Base-85 text of data: every four bytes give five digits (or `z` if all four are zero), a last group of `n < 4`
bytes gives the first `n + 1` digits of its zero-padded number. -/
def base85 : List UInt8 → List UInt8
  | a :: b :: c :: d :: rest =>
    (if group32 [a, b, c, d] = 0 then [0x7A] else chars85 (digits85 5 (group32 [a, b, c, d]))) ++ base85 rest
  | [] => []
  | g => chars85 ((digits85 5 (group32 g)).take (g.length + 1))

/-- The first bytes of the groups of four. -/
def groupHeads : List UInt8 → List UInt8
  | a :: _ :: _ :: _ :: rest => a :: groupHeads rest
  | [] => []
  | a :: _ => [a]

/-- PNG: the predicted value of a byte from its left (`a`), upper (`b`) and upper left (`c`) neighbours. -/
def pngPredict (ty : Nat) (a b c : Nat) : Nat :=
  match ty with
  | 1 => a
  | 2 => b
  | 3 => (a + b) / 2
  | 4 =>
    let p : Int := (a : Int) + b - c
    let pa := (p - a).natAbs
    let pb := (p - b).natAbs
    let pc := (p - c).natAbs
    if pa ≤ pb ∧ pa ≤ pc then a else if pb ≤ pc then b else c
  | _ => 0

/-- The byte of a row `bpp` places to the left; zero before the row starts. -/
def leftOf (bpp : Nat) (row : List UInt8) (i : Nat) : Nat := if i < bpp then 0 else (row.getD (i - bpp) 0).toNat

/-- PNG filtering of one row: every byte minus its prediction, modulo 256. -/
def pngFilterRow (ty bpp : Nat) (prior row : List UInt8) : List UInt8 :=
  (List.range row.length).map fun i =>
    row.getD i 0 - UInt8.ofNat (pngPredict ty (leftOf bpp row i) (prior.getD i 0).toNat (leftOf bpp prior i))

/-- PNG filtering of an image: each row with its own filter type, preceded by the type; the row above the first is
zero. -/
def pngFilter (bpp : Nat) : List UInt8 → List (Nat × List UInt8) → List UInt8
  | _, [] => []
  | prior, (ty, row) :: rows => UInt8.ofNat ty :: pngFilterRow ty bpp prior row ++ pngFilter bpp row rows

/-- PNG: bytes per pixel, rounded up to one. -/
def pngBytesPerPixel (colors bits : Nat) : Nat := max 1 ((colors * bits + 7) / 8)

/-- PNG: bytes per row. -/
def pngBytesPerRow (colors bits columns : Nat) : Nat := (colors * bits * columns + 7) / 8

end VPdf.Spec
