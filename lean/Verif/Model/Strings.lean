import Verif.Model.Numbers
/-
  Names and strings: src/vanillapdf/syntax/objects/name_object.cpp and string_object.cpp
-/
namespace VPdf

/-- One character of `NameObject::ToString`, name_object.cpp:146-175.  `current < '!' || current > '~'` is a
comparison of signed `char`s: bytes from 0x80 are negative, hence below `'!'`. -/
def encodeNameByte (c : Byte) : Bytes :=
  if c == 0x23 then 0x23 :: hex2 c
  else if !isRegularSigned c then 0x23 :: hex2 c
  else if c.toInt8 < 0x21 || c.toInt8 > 0x7E then 0x23 :: hex2 c
  else [c]

/-- `NameObject::ToString`, name_object.cpp:146-175. -/
def encodeName (n : Bytes) : Bytes := n.flatMap encodeNameByte

/-- `NameObject::ToPdfStreamInternal`, name_object.cpp:108-111. -/
def writeName (n : Bytes) : Bytes := 0x2F :: encodeName n

/-- `NameObject::CreateFromEncoded`, name_object.cpp:19-41: the bytes up to the first non-regular character,
with `#xx` replaced. -/
def decodeName : Bytes → Res Bytes
  | [] => .ok []
  | c :: rest =>
    if isRegular c then
      if c == 0x23 then
        match rest with
        | [] => do let v ← parseByte 16 []; pure [v]
        | [x] => do let v ← parseByte 16 [x]; pure [v]
        | x :: y :: rest' => do
          let v ← parseByte 16 [x, y]
          let n ← decodeName rest'
          pure (v :: n)
      else do
        let n ← decodeName rest
        pure (c :: n)
    else .ok []

/-- `std::isprint` in the C locale. Used in string_object.cpp:564. -/
def isPrint (c : Byte) : Bool := 0x20 ≤ c && c ≤ 0x7E

/-- One character of `LiteralStringObject::ToPdfStreamInternal`, string_object.cpp:523-569. -/
def encodeLiteralByte (c : Byte) : Bytes :=
  if c == 0x0A then [0x5C, 0x6E]
  else if c == 0x0D then [0x5C, 0x72]
  else if c == 0x09 then [0x5C, 0x74]
  else if c == 0x08 then [0x5C, 0x62]
  else if c == 0x0C then [0x5C, 0x66]
  else if c == 0x28 then [0x5C, 0x28]
  else if c == 0x29 then [0x5C, 0x29]
  else if c == 0x5C then [0x5C, 0x5C]
  else if !isPrint c then 0x5C :: oct3 c
  else [c]

/-- `LiteralStringObject::ToPdfStreamInternal` of an unencrypted string, string_object.cpp:486-576. -/
def writeLiteral (v : Bytes) : Bytes := 0x28 :: (v.flatMap encodeLiteralByte ++ [0x29])

/-- `LiteralStringObject::GetRawValueDecoded`, string_object.cpp:187-366.  The first argument is
`nested_count`; when it would become negative the loop is left with a non-zero counter, which throws. -/
def decodeLiteral : Nat → Bytes → Res Bytes
  | n, [] => if n = 0 then .ok [] else .error .throw
  | n, c :: rest =>
    if c == 0x29 && n == 0 then .error .throw
    else
      let n' := if c == 0x28 then n + 1 else if c == 0x29 then n - 1 else n
      if c == 0x0D then
        match rest with
        | 0x0A :: rest' => do let r ← decodeLiteral n' rest'; pure (0x0D :: 0x0A :: r)
        | rest' => do let r ← decodeLiteral n' rest'; pure (0x0D :: r)
      else if c != 0x5C then do
        let r ← decodeLiteral n' rest
        pure (c :: r)
      else
        match rest with
        | [] => if n' = 0 then .ok [] else .error .throw
        | x :: rest1 =>
          if x == 0x72 then do let r ← decodeLiteral n' rest1; pure (0x0D :: r)
          else if x == 0x66 then do let r ← decodeLiteral n' rest1; pure (0x0C :: r)
          else if x == 0x74 then do let r ← decodeLiteral n' rest1; pure (0x09 :: r)
          else if x == 0x6E then do let r ← decodeLiteral n' rest1; pure (0x0A :: r)
          else if x == 0x62 then do let r ← decodeLiteral n' rest1; pure (0x08 :: r)
          else if x == 0x28 then do let r ← decodeLiteral n' rest1; pure (0x28 :: r)
          else if x == 0x29 then do let r ← decodeLiteral n' rest1; pure (0x29 :: r)
          else if x == 0x5C then do let r ← decodeLiteral n' rest1; pure (0x5C :: r)
          else if x == 0x0D then
            match rest1 with
            | 0x0A :: rest2 => decodeLiteral n' rest2
            | rest2 => decodeLiteral n' rest2
          else if x == 0x0A then decodeLiteral n' rest1
          else if !isNumeric x then decodeLiteral n' (x :: rest1)
          else
            match rest1 with
            | y :: rest2 =>
              if isNumeric y then
                match rest2 with
                | z :: rest3 =>
                  if isNumeric z then do
                    let b ← parseByte 8 [x, y, z]
                    let r ← decodeLiteral n' rest3
                    pure (b :: r)
                  else do
                    let b ← parseByte 8 [x, y]
                    let r ← decodeLiteral n' (z :: rest3)
                    pure (b :: r)
                | [] => do
                  let b ← parseByte 8 [x, y]
                  let r ← decodeLiteral n' []
                  pure (b :: r)
              else do
                let b ← parseByte 8 [x]
                let r ← decodeLiteral n' (y :: rest2)
                pure (b :: r)
            | [] => do
              let b ← parseByte 8 [x]
              let r ← decodeLiteral n' []
              pure (b :: r)

/-- `HexadecimalStringObject::ToPdfStreamInternal` of an unencrypted string, string_object.cpp:451-484. -/
def writeHex (v : Bytes) : Bytes := 0x3C :: (v.flatMap hex2 ++ [0x3E])

/-- The pair loop of `HexadecimalStringObject::GetValue`, string_object.cpp:410-415; a single remaining digit
is padded with the digit `0` (390-393). -/
def decodeHexPairs : Bytes → Res Bytes
  | [] => .ok []
  | [x] => do let b ← parseByte 16 [x, 0x30]; pure [b]
  | x :: y :: rest => do
    let b ← parseByte 16 [x, y]
    let r ← decodeHexPairs rest
    pure (b :: r)

end VPdf
