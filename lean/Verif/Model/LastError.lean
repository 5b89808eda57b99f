import Verif.Model.Basic
/-
  The last error of a thread: utils/errors.cpp, implementation/c_helper.h, implementation/utils/c_errors.cpp.
-/
namespace VPdf

/-- `VANILLAPDF_ERROR_...`, utils/exceptions.h:15-43, implementation/c_values.cpp:11-32.  The order is that of the comparisons in
implementation/utils/c_errors.cpp:30-55. -/
def errorNames : List (Nat × Bytes) := [
  (0, b! "VANILLAPDF_ERROR_SUCCESS"),
  (1, b! "VANILLAPDF_ERROR_PARAMETER_VALUE"),
  (2, b! "VANILLAPDF_ERROR_NOT_SUPPORTED"),
  (3, b! "VANILLAPDF_ERROR_USER_CANCELLED"),
  (4, b! "VANILLAPDF_ERROR_ZLIB_DATA"),
  (5, b! "VANILLAPDF_ERROR_INVALID_LICENSE"),
  (6, b! "VANILLAPDF_ERROR_LICENSE_REQUIRED"),
  (7, b! "VANILLAPDF_ERROR_INSUFFICIENT_SPACE"),
  (0xFFFFFFFF, b! "VANILLAPDF_ERROR_GENERAL"),
  (0x10000, b! "VANILLAPDF_ERROR_CONVERSION"),
  (0x10001, b! "VANILLAPDF_ERROR_FILE_DISPOSED"),
  (0x10002, b! "VANILLAPDF_ERROR_FILE_NOT_INITIALIZED"),
  (0x10003, b! "VANILLAPDF_ERROR_OBJECT_MISSING"),
  (0x10004, b! "VANILLAPDF_ERROR_PARSE_EXCEPTION"),
  (0x10005, b! "VANILLAPDF_ERROR_INVALID_PASSWORD"),
  (0x10006, b! "VANILLAPDF_ERROR_DUPLICATE_KEY"),
  (0x10000000, b! "VANILLAPDF_ERROR_OPTIONAL_ENTRY_MISSING"),
  (0x10000001, b! "VANILLAPDF_ERROR_SEMANTIC_CONTEXT")]

/-- `VANILLAPDF_ERROR_GENERAL`, implementation/c_values.cpp:19. -/
def errorGeneral : Nat := 0xFFFFFFFF

/-- `constant::MAX_MESSAGE_SIZE`, utils/constants.h:31. -/
def maxMessage : Nat := 256

/-- `Errors::m_error`, `m_message_length` and `m_message`, utils/errors.cpp:9-11, one of each per thread. -/
structure LastError where
  code : Nat := 0
  length : Nat := 0
  message : Bytes := List.replicate 256 0

/-- `std::memcpy` to the beginning of `to`: `n` bytes of `src`.  C++ leaves reads beyond `src` and writes beyond `to` undefined;
the callers below make neither. utils/errors.cpp:41, c_errors.cpp:103 and 121. -/
def copyBytes (to src : Bytes) (n : Nat) : Bytes := src.take n ++ to.drop n

/-- `Errors::SetLastErrorMessage(const char*)`, utils/errors.cpp:33-46: `what` is a text with a zero byte behind it. -/
def setMessage (e : LastError) (what : Bytes) : LastError :=
  let text := what.takeWhile (· != 0) ++ [0]
  let limited := min text.length (maxMessage - 1)
  { e with message := (copyBytes e.message text limited).set limited 0, length := limited }

/-- How a function of the C interface ends: it returns a code (success, a missing argument or object, or another failure that is
no exception), or something was thrown in it. implementation/c_helper.h:12-38, for example
implementation/syntax/c_dictionary_object.cpp. -/
inductive CallEnd
  | returns (code : Nat)
  | exception (code : Nat) (what : Bytes)
  | standard (what : Bytes)
  | unknown

/-- `CATCH_VANILLAPDF_EXCEPTIONS`, implementation/c_helper.h:15-38: the code that is returned, and the last error. -/
def finish (e : LastError) : CallEnd → Nat × LastError
  | .returns code => (code, e)
  | .exception code what => (code, setMessage { e with code := code } what)
  | .standard what => (errorGeneral, setMessage { e with code := errorGeneral } what)
  | .unknown => (errorGeneral, { e with code := errorGeneral })

/-- Calls of several threads, each with its thread: `thread_local`, utils/errors.cpp:9-11. -/
def finishAll (s : Nat → LastError) : List (Nat × CallEnd) → Nat → LastError
  | [] => s
  | (t, c) :: l => finishAll (fun u => if u = t then (finish (s t) c).2 else s u) l

/-- `Errors_GetLastError`, c_errors.cpp:60-65. -/
def getLastError (e : LastError) : Nat := e.code

/-- `Errors_GetLastErrorMessageLength`, c_errors.cpp:107-112. -/
def getMessageLength (e : LastError) : Nat := e.length

/-- `Errors_GetLastErrorMessage` with a buffer and its size, c_errors.cpp:114-126: the code, and the buffer afterwards. -/
def getMessage (e : LastError) (data : Bytes) (size : Nat) : Nat × Bytes :=
  if size < e.length then (errorGeneral, data) else (0, copyBytes data e.message e.length)

/-- `GetValueName`, c_errors.cpp:18-57: the text with the zero byte. -/
def valueName (code : Nat) : Option Bytes := (errorNames.find? (·.1 == code)).map (·.2 ++ [0])

/-- `Errors_GetPrintableErrorTextLength`, c_errors.cpp:67-81. -/
def printableLength (code : Nat) : Option Nat := (valueName code).map List.length

/-- `Errors_GetPrintableErrorText`, c_errors.cpp:83-105. -/
def printableText (code : Nat) (data : Bytes) (size : Nat) : Nat × Bytes :=
  match valueName code with
  | none => (errorGeneral, data)
  | some v => if size < v.length then (errorGeneral, data) else (0, copyBytes data v v.length)

end VPdf
