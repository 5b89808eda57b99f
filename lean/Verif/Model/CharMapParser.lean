import Verif.Model.CharMap
import Verif.Model.Parser
/-
  src/vanillapdf/contents/character_map_parser.cpp: reading of character maps.

  As in Model/Parser.lean the position of the reader is the list of bytes still to be read.
-/
namespace VPdf

/-- `CharacterMapTokenDictionary::Initialize`, token_dictionary.cpp:32-56 and 190-222: the words of character maps and the
keywords of `ParserTokenDictionary`. -/
def cmapKeywords : List Bytes :=
  [b! "begin", b! "end", b! "findresource", b! "dict", b! "begincmap", b! "endcmap", b! "begincodespacerange",
   b! "endcodespacerange", b! "beginbfrange", b! "endbfrange", b! "beginbfchar", b! "endbfchar", b! "beginnotdefrange",
   b! "endnotdefrange", b! "beginnotdefchar", b! "endnotdefchar", b! "begincidrange", b! "endcidrange", b! "begincidchar",
   b! "endcidchar", b! "def", b! "CMapName", b! "currentdict", b! "defineresource", b! "pop"] ++ parserKeywords

/-- `CIDSystemInfo`, character_map_data.h:51-55; the strings with their kind. -/
structure SystemInfo where
  registry : Obj
  ordering : Obj
  supplement : Int

/-- `CharacterMapData`, character_map_data.h:57-72.  `none`: never assigned. -/
structure CMapData where
  systemInfo : Option SystemInfo := none
  name : Option Bytes := none
  type : Option Int := none
  codeSpace : List (Bytes × Bytes) := []
  bfRanges : List FontRange := []
  bfChars : List (Bytes × Bytes) := []
  notdefRanges : List FontRange := []
  notdefChars : List (Bytes × Bytes) := []
  cidRanges : List FontRange := []
  cidChars : List (Bytes × Bytes) := []

/-- `ParserBase::ReadHexadecimalString`, parser.cpp:291-296, with the words of character maps. -/
def readHexadecimal (s : Bytes) : Res (Bytes × Bytes) := do
  let (t, r) ← expectSkip cmapKeywords .hexString s
  let v ← decodeHexPairs t.value
  pure (v, r)

/-- The loops that read `count` pairs of strings, character_map_parser.cpp:35-44, 77-90, 120-133 and 163-176. -/
def readPairs : Nat → Bytes → Res (List (Bytes × Bytes) × Bytes)
  | 0, s => .ok ([], s)
  | n + 1, s => do
    let (a, s) ← readHexadecimal s
    let (b, s) ← readHexadecimal s
    let (l, s) ← readPairs n s
    pure ((a, b) :: l, s)

/-- The loops that read `count` ranges, character_map_parser.cpp:53-68, 98-113 and 141-156.  The destination is read by
`ParserBase::ReadDirectObject` (parser.cpp:336-370), modelled with the keywords of `Parser`: the other words of character maps begin
no object and continue none, exactly as unknown words.  Simplification: a stream as destination is a failure here; in the code it is
stored and every lookup that meets it fails. -/
def readRanges (e : Env) : Nat → Bytes → Res (List FontRange × Bytes)
  | 0, s => .ok ([], s)
  | n + 1, s => do
    let (a, s) ← readHexadecimal s
    let (b, s) ← readHexadecimal s
    let (o, s) ← parse e s
    match o with
    | .direct o => do
      let (l, s) ← readRanges e n s
      pure (⟨a, b, o⟩ :: l, s)
    | .stream _ _ => throw .throw

/-- `ReadTokenWithTypeSkip` for a keyword of character maps, parser.cpp:462-478: what follows it. -/
def expectWord (w : Bytes) (s : Bytes) : Res Bytes := do
  let (_, s) ← expectSkip cmapKeywords (.keyword w) s
  pure s

/-- The sections of `CharacterMapParser::ReadCharacterMapData`, character_map_parser.cpp:31-183: the integer token has the text
`count`, the word behind it is `w`, and `s` follows.  `none`: the word begins no section. -/
def readMapSection (e : Env) (m : CMapData) (count w s : Bytes) : Option (Res (CMapData × Bytes)) :=
  if w = b! "begincodespacerange" then some do
    let n ← stoll count
    let (l, s) ← readPairs n.toNat s
    let s ← expectWord (b! "endcodespacerange") s
    pure ({ m with codeSpace := m.codeSpace ++ l }, s)
  else if w = b! "beginbfrange" then some do
    let n ← stoll count
    let (l, s) ← readRanges e n.toNat s
    let s ← expectWord (b! "endbfrange") s
    pure ({ m with bfRanges := m.bfRanges ++ l }, s)
  else if w = b! "beginbfchar" then some do
    let n ← stoll count
    let (l, s) ← readPairs n.toNat s
    let s ← expectWord (b! "endbfchar") s
    pure ({ m with bfChars := m.bfChars ++ l }, s)
  else if w = b! "beginnotdefrange" then some do
    let n ← stoll count
    let (l, s) ← readRanges e n.toNat s
    let s ← expectWord (b! "endnotdefrange") s
    pure ({ m with notdefRanges := m.notdefRanges ++ l }, s)
  else if w = b! "beginnotdefchar" then some do
    let n ← stoll count
    let (l, s) ← readPairs n.toNat s
    let s ← expectWord (b! "endnotdefchar") s
    pure ({ m with notdefChars := m.notdefChars ++ l }, s)
  else if w = b! "begincidrange" then some do
    let n ← stoll count
    let (l, s) ← readRanges e n.toNat s
    let s ← expectWord (b! "endcidrange") s
    pure ({ m with cidRanges := m.cidRanges ++ l }, s)
  else if w = b! "begincidchar" then some do
    let n ← stoll count
    let (l, s) ← readPairs n.toNat s
    let s ← expectWord (b! "endcidchar") s
    pure ({ m with cidChars := m.cidChars ++ l }, s)
  else none

/-- `FindAs<StringObjectPtr>`, dictionary_object.h:95-104 with object_utils.h:24-59 and 280-284.  Simplification: references are not
followed. -/
def findString (k : Bytes) (d : Dict) : Res Obj :=
  match mapFind k d with
  | some (.lit v) => .ok (.lit v)
  | some (.hex v) => .ok (.hex v)
  | _ => .error .throw

/-- `FindAs<IntegerObjectPtr>`, dictionary_object.h:95-104 with object_utils.h:78-101 and 280-284.  Simplification: real numbers and references
are left out. -/
def findInteger (k : Bytes) (d : Dict) : Res Int :=
  match mapFind k d with
  | some (.int i) => .ok i
  | _ => .error .throw

/-- The definitions of `CharacterMapParser::ReadCharacterMapData`, character_map_parser.cpp:186-210: `s` is behind the name `n`. -/
def readDefinition (e : Env) (m : CMapData) (n s : Bytes) : Res (CMapData × Bytes) :=
  if n = b! "CIDSystemInfo" then do
    let (_, s) ← expectSkip cmapKeywords .dictBegin s
    let (d, s) ← readDict e (2 * s.length + 2) s []
    let a ← findString (b! "Registry") d
    let b ← findString (b! "Ordering") d
    let c ← findInteger (b! "Supplement") d
    let s ← expectWord (b! "def") s
    pure ({ m with systemInfo := some ⟨a, b, c⟩ }, s)
  else if n = b! "CMapName" then do
    let (t, s) ← expectSkip cmapKeywords .name s
    let s ← expectWord (b! "def") s
    pure ({ m with name := some t.value }, s)
  else if n = b! "CMapType" then do
    let (t, s) ← expectSkip cmapKeywords .integer s
    let i ← stoll t.value
    let s ← expectWord (b! "def") s
    pure ({ m with type := some i }, s)
  else pure (m, s)

/-- The loop of `CharacterMapParser::ReadCharacterMapData`, character_map_parser.cpp:23-212.  The first argument bounds the number
of rounds. -/
def readCMapN (e : Env) : Nat → Bytes → CMapData → Res CMapData
  | 0, _, _ => .error .timeout
  | f + 1, s, m => do
    let (t, r) ← readTokenSkip cmapKeywords s
    let (a, ra) ← readTokenSkip cmapKeywords r
    match t.type with
    | .endOfInput => pure m
    | .integer =>
      match a.type with
      | .keyword w =>
        match readMapSection e m t.value w ra with
        | some x => do
          let (m, s) ← x
          readCMapN e f s m
        | none => readCMapN e f r m
      | _ => readCMapN e f r m
    | .name => do
      let (m, s) ← readDefinition e m t.value r
      readCMapN e f s m
    | _ => readCMapN e f r m

/-- `CharacterMapParser::ReadCharacterMapData`, character_map_parser.cpp:20-213, for a text whose end is reached after at most as
many rounds as it has bytes. -/
def readCMap (e : Env) (s : Bytes) : Res CMapData := readCMapN e (s.length + 1) s {}

/-- What `UnicodeCharacterMap::GetMappedValue` uses, character_map.cpp:42-75. -/
def CMapData.unicode (m : CMapData) : CharMap := ⟨m.codeSpace, m.bfRanges, m.bfChars⟩

/-- `UnicodeCharacterMap::Initialize` and `GetMappedValue`, character_map.cpp:28-106, for the decoded body of the stream. -/
def mappedValue (e : Env) (body key : Bytes) : Res Bytes := do
  let m ← readCMap e body
  m.unicode.map key

end VPdf
