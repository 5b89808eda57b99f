import Verif.Model.Annotations
/-
  Entries of the catalog and of the viewer preferences that have a fixed set of values, the version of the catalog, and the page ranges
  for printing: src/vanillapdf/semantics/objects/catalog.cpp:31-40, 77-102, 145-169,
  src/vanillapdf/semantics/objects/viewer_preferences.cpp, src/vanillapdf/semantics/utils/semantic_utils.cpp:14-47.

  As in Model/PageTree.lean, one reference is followed where the code follows any number of them.
-/
namespace VPdf

/-- The entries, catalog.cpp:77, 145, viewer_preferences.cpp:93-208. -/
inductive ViewEntry where
  | pageLayout | pageMode | nonFullScreenPageMode | direction | printScaling | duplex
  deriving DecidableEq, Repr

/-- The values: `PageLayoutType`, `PageModeType`, `NonFullScreenPageModeType`, `ReadingOrderType`, `PrintScalingType`, `DuplexType` of
catalog.h and viewer_preferences.h; c_catalog.cpp and c_viewer_preferences.cpp pass them on. -/
inductive ViewValue where
  | singlePage | oneColumn | twoColumnLeft | twoColumnRight | twoPageLeft | twoPageRight
  | useNone | useOutlines | useThumbs | fullScreen | useOC | useAttachments
  | leftToRight | rightToLeft
  | appDefault | noScaling
  | simplex | flipShortEdge | flipLongEdge
  deriving DecidableEq, Repr

/-- The key of the entry, catalog.cpp:78, 146, viewer_preferences.cpp:94, 116, 170, 188. -/
def ViewEntry.key : ViewEntry → Bytes
  | .pageLayout => b! "PageLayout"
  | .pageMode => b! "PageMode"
  | .nonFullScreenPageMode => b! "NonFullScreenPageMode"
  | .direction => b! "Direction"
  | .printScaling => b! "PrintScaling"
  | .duplex => b! "Duplex"

/-- The comparisons of the name, catalog.cpp:82-98, 150-166, viewer_preferences.cpp:98-108, 120-126, 174-180, 192-207. -/
def ViewEntry.choices : ViewEntry → List (Bytes × ViewValue)
  | .pageLayout => [(b! "SinglePage", .singlePage), (b! "OneColumn", .oneColumn), (b! "TwoColumnLeft", .twoColumnLeft),
      (b! "TwoColumnRight", .twoColumnRight), (b! "TwoPageLeft", .twoPageLeft), (b! "TwoPageRight", .twoPageRight)]
  | .pageMode => [(b! "UseNone", .useNone), (b! "UseOutlines", .useOutlines), (b! "UseThumbs", .useThumbs),
      (b! "FullScreen", .fullScreen), (b! "UseOC", .useOC), (b! "UseAttachments", .useAttachments)]
  | .nonFullScreenPageMode => [(b! "UseNone", .useNone), (b! "UseOutlines", .useOutlines), (b! "UseThumbs", .useThumbs),
      (b! "UseOC", .useOC)]
  | .direction => [(b! "L2R", .leftToRight), (b! "R2L", .rightToLeft)]
  | .printScaling => [(b! "AppDefault", .appDefault), (b! "None", .noScaling)]
  | .duplex => [(b! "Simplex", .simplex), (b! "DuplexFlipShortEdge", .flipShortEdge), (b! "DuplexFlipLongEdge", .flipLongEdge)]

/-- `FindAs` of a name after `Contains`, for example catalog.cpp:78-82. -/
def nameEntry (s : PStore) (d : Dict) (k : Bytes) : Res (Option Bytes) :=
  match mapFind k d with
  | none => .ok none
  | some _ => do
    match ← treeEntry s d k with
    | .name n => pure (some n)
    | _ => .error .conversion

/-- `Catalog::PageLayout`, `Catalog::PageMode`, catalog.cpp:77-102, 145-169; `NonFullScreenPageMode`, `Direction`, `PrintScaling`,
`Duplex`, viewer_preferences.cpp:93-208. -/
def viewEntry (s : PStore) (d : Dict) (e : ViewEntry) : Res (Option ViewValue) := do
  match ← nameEntry s d e.key with
  | none => pure none
  | some n =>
    match firstNamed n e.choices with
    | some v => pure (some v)
    | none => throw .throw

/-- `SemanticUtils::GetVersionFromName`, semantic_utils.cpp:14-47: the regular expression and the two numbers. -/
def versionFromName : Bytes → Res (Nat × Nat)
  | [a, p, b] =>
    if (0x30 ≤ a ∧ a ≤ 0x39) ∧ p = 0x2E ∧ (0x30 ≤ b ∧ b ≤ 0x39) then
      let major := a.toNat - 0x30
      let minor := b.toNat - 0x30
      if major = 1 ∧ minor ≤ 7 then .ok (1, minor)
      else if major = 2 ∧ minor = 0 then .ok (2, 0)
      else .error .notSupported
    else .error .notSupported
  | _ => .error .notSupported

/-- `Catalog::Version`, catalog.cpp:31-40. -/
def catalogVersion (s : PStore) (d : Dict) : Res (Option (Nat × Nat)) := do
  match ← nameEntry s d (b! "Version") with
  | none => pure none
  | some n => do
    let v ← versionFromName n
    pure (some v)

/-- `ViewerPreferences::PrintPageRange`, viewer_preferences.cpp:219-228, with the constructor of `PageRange` (16-21). -/
def printRanges (s : PStore) (d : Dict) : Res (Option (List Obj)) :=
  match mapFind (b! "PrintPageRange") d with
  | none => .ok none
  | some _ => do
    let l ← treeArray s d (b! "PrintPageRange")
    if l.length % 2 ≠ 0 then throw .throw
    pure (some l)

/-- `PageRange::GetSize`, viewer_preferences.cpp:31-33. -/
def rangeCount (l : List Obj) : Nat := l.length / 2

/-- An item of the array as an integer, array_object.h:99-100.  Simplification: real numbers fail. -/
def rangeItem (s : PStore) (l : List Obj) (i : Nat) : Res Int :=
  match l[i]? with
  | none => .error .throw
  | some o =>
    match derefOne s o with
    | .int n => .ok n
    | _ => .error .conversion

/-- `PageRange::At`, viewer_preferences.cpp:35-37: the first and the last page. -/
def rangeAt (s : PStore) (l : List Obj) (i : Nat) : Res (Int × Int) := do
  let a ← rangeItem s l i
  let b ← rangeItem s l (i + 1)
  pure (a, b)

end VPdf
