import Verif.Model.Parser
/-
  The peek cache of src/vanillapdf/syntax/parsers/tokenizer.cpp and the position of the input stream.
-/
namespace VPdf

/-- Position of the stream: `none` is BAD_OFFSET, which `InputStream::GetInputPosition` (input_stream.cpp:51-59)
reports while the eof flag is set. -/
abbrev Pos := Option Nat

/-- What is left when the bytes behind `#` in a name are refused (tokenizer.cpp:235-246). -/
def nameFail : Bytes → Bytes
  | [] => []
  | c :: rest =>
    if isRegular c then
      if c == 0x23 then
        match rest with
        | x :: y :: rest' => (match parseByte 16 [x, y] with | .ok _ => nameFail rest' | .error _ => rest')
        | _ => []
      else nameFail rest
    else c :: rest

/-- What is left when a character of a hexadecimal string is refused (tokenizer.cpp:208-226). -/
def hexFail : Bytes → Bytes
  | [] => []
  | c :: rest => if isWhiteSpace c || isNumeric c || isAlpha c then hexFail rest else rest

/-- What is left of the input when `ReadToken` throws (tokenizer.cpp:66-97). -/
def failRest (s : Bytes) : Bytes :=
  match skipBlank false s with
  | 0x3E :: rest => rest
  | 0x3C :: rest => hexFail rest
  | 0x2F :: rest => nameFail rest
  | _ => []

/-- Whether the reader of token `t` has looked behind the last byte of the input when nothing is left, so that the
eof flag is set (tokenizer.cpp:54-100, 103-302: the delimiters and a line feed are taken without looking further). -/
def looksBehind (t : Token) (s : Bytes) : Bool :=
  match t.type with
  | .dictBegin | .dictEnd | .arrayBegin | .arrayEnd | .literalString => false
  | .hexString => s.getLast? != some 0x3E
  | .eol => s.getLast? != some 0x0A
  | _ => true

/-- `Tokenizer::ReadToken` behind the cache check (tokenizer.cpp:30-100) as a function of the position of the stream:
the token or the exception, and the position afterwards. -/
def readAt (dict : List Bytes) (whole : Bytes) : Pos → Res Token × Pos
  | none => (.ok ⟨.endOfInput, []⟩, none)
  | some n =>
    let s := whole.drop n
    match readToken dict s with
    | .ok (t, r) => (.ok t, if r.isEmpty && looksBehind t s then none else some (whole.length - r.length))
    | .error f => (.error f, if (failRest s).isEmpty then none else some (whole.length - (failRest s).length))

/-- `Tokenizer::CacheItem`, tokenizer.h:17-20. -/
structure CacheItem where
  token : Token
  advance : Pos

/-- The map from offsets to items, in the order of the keys (BAD_OFFSET, -1, comes first). tokenizer.h:37. -/
abbrev Cache := List (Pos × CacheItem)

/-- Order of offsets. The order of the keys of tokenizer.h:37. -/
def posLt : Pos → Pos → Bool
  | none, some _ => true
  | some a, some b => a < b
  | _, none => false

/-- `_cache.find` and `_cache[offset]` of an existing key (tokenizer.cpp:304-310). -/
def cacheFind (p : Pos) : Cache → Option CacheItem
  | [] => none
  | (q, i) :: rest => if p = q then some i else cacheFind p rest

/-- `_cache[current] = cache_item` (tokenizer.cpp:328). -/
def cachePut (p : Pos) (i : CacheItem) : Cache → Cache
  | [] => [(p, i)]
  | (q, j) :: rest => if p = q then (p, i) :: rest else if posLt p q then (p, i) :: (q, j) :: rest
    else (q, j) :: cachePut p i rest

/-- A tokenizer: position of its stream and cache. tokenizer.h:20-40. -/
structure Tok where
  pos : Pos
  cache : Cache

/-- `Tokenizer::ReadToken`, tokenizer.cpp:20-101. -/
def tokRead (dict : List Bytes) (whole : Bytes) (k : Tok) : Res Token × Tok :=
  match cacheFind k.pos k.cache with
  | some i => (.ok i.token, { k with pos := i.advance })
  | none => let (r, p) := readAt dict whole k.pos; (r, { k with pos := p })

/-- `Tokenizer::PeekToken`, tokenizer.cpp:313-336; TOKENIZER_CACHE_SIZE is 10.  An exception of `ReadToken` leaves
the stream where it was thrown. -/
def tokPeek (dict : List Bytes) (whole : Bytes) (k : Tok) : Res Token × Tok :=
  match cacheFind k.pos k.cache with
  | some i => (.ok i.token, k)
  | none =>
    match tokRead dict whole k with
    | (.error f, k') => (.error f, k')
    | (.ok t, k') =>
      let c := if k.cache.length == 10 then k.cache.tail else k.cache
      (.ok t, ⟨k.pos, cachePut k.pos ⟨t, k'.pos⟩ c⟩)

/-- What a user of a tokenizer does: read, peek, or set the position of the stream. tokenizer.h:26-30. -/
inductive TokOp where
  | read
  | peek
  | seek (n : Nat)
  deriving DecidableEq

/-- One operation: result (none for seek) and new state. tokenizer.cpp:30-100 and the peek functions cited above. -/
def tokStep (dict : List Bytes) (whole : Bytes) (k : Tok) : TokOp → Option (Res Token) × Tok
  | .read => let (r, k') := tokRead dict whole k; (some r, k')
  | .peek => let (r, k') := tokPeek dict whole k; (some r, k')
  | .seek n => (none, { k with pos := some n })

/-- A sequence of operations: the operations with their results, and the final state.
A sequence of calls of the functions of tokenizer.h:26-30. -/
def tokRun (dict : List Bytes) (whole : Bytes) : Tok → List TokOp → List (TokOp × Option (Res Token)) × Tok
  | k, [] => ([], k)
  | k, o :: os =>
    let (r, k') := tokStep dict whole k o
    let (rs, k'') := tokRun dict whole k' os
    ((o, r) :: rs, k'')

/-- `ParserBase::PeekTokenSkip`, parser.cpp:439-455: peeks until a token other than EOL is found, then returns to the
start if it moved.  An exception leaves the stream where it was thrown. -/
def tokPeekSkip (dict : List Bytes) (whole : Bytes) (start : Pos) (rewind : Bool) : Nat → Tok → Res Token × Tok
  | 0, k => (.error .timeout, k)
  | f + 1, k =>
    match tokPeek dict whole k with
    | (.error e, k') => (.error e, k')
    | (.ok t, k') =>
      if t.type == .eol then
        match tokRead dict whole k' with
        | (.error e, k'') => (.error e, k'')
        | (.ok _, k'') => tokPeekSkip dict whole start true f k''
      else (.ok t, if rewind then { k' with pos := start } else k')

/-- `ParserBase::ReadTokenSkip`, parser.cpp:429-437, with the cache. -/
def tokReadSkip (dict : List Bytes) (whole : Bytes) : Nat → Tok → Res Token × Tok
  | 0, k => (.error .timeout, k)
  | f + 1, k =>
    match tokRead dict whole k with
    | (.error e, k') => (.error e, k')
    | (.ok t, k') => if t.type == .eol then tokReadSkip dict whole f k' else (.ok t, k')

end VPdf
