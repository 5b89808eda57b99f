import Verif.Model.Images
/-
  Attributes of objects: src/vanillapdf/syntax/utils/object_attribute_list.cpp, the attributes beside it
  (*_object_attribute.h), their C interface (implementation/syntax/c_object_attribute_list.cpp and
  c_object_attributes.cpp), and their uses in object.cpp, stream_object.cpp and dct_decode_filter.cpp.

  Handles of attributes and of lists are numbers.  Reference counts and assertions are not modelled (release build).
-/
namespace VPdf

/-- `BaseAttribute::Type`, base_object_attribute.h:11-18. -/
inductive AttrType where
  | undefined
  | empty
  | override
  | tracking
  | image
  | objectStream
  deriving DecidableEq

/-- The attributes: empty_object_attribute.h, serialization_override_object_attribute.h,
tracking_identifier_object_attribute.h, image_metadata_object_attribute.h.  The attribute of objects from object
streams is left out. -/
inductive Attr where
  | empty
  | override (text : Bytes)
  | tracking (id : Bytes)
  | image (facts : ImageFacts)
  deriving DecidableEq

/-- `GetType` of the attributes, e.g. image_metadata_object_attribute.h:53-55. -/
def Attr.type : Attr → AttrType
  | .empty => .empty
  | .override _ => .override
  | .tracking _ => .tracking
  | .image _ => .image

/-- `AttributeList`, object_attribute_list.h:13-52: the types with the handles of their attributes.  A list without
a map (object_attribute_list.cpp:9-15) is an empty one. -/
abbrev AttrList := List (AttrType × Nat)

/-- `find` of the map, object_attribute_list.cpp:25, 42, 52. -/
def attrFind (m : AttrList) (t : AttrType) : Option Nat := (m.find? (fun p => p.1 = t)).map Prod.snd

/-- `AttributeList::Contains`, object_attribute_list.cpp:17-26. -/
def attrContains (m : AttrList) (t : AttrType) : Bool := (attrFind m t).isSome

/-- `insert` of the map, object_attribute_list.cpp:35: an entry that is there stays. -/
def attrInsert (m : AttrList) (t : AttrType) (i : Nat) : AttrList := if attrContains m t then m else (t, i) :: m

/-- `AttributeList::Add`, object_attribute_list.cpp:28-36. -/
def attrAdd (m : AttrList) (t : AttrType) (i : Nat) (overwrite : Bool) : Res AttrList :=
  if !overwrite && attrContains m t then .error .duplicateKey else .ok (attrInsert m t i)

/-- `AttributeList::Remove`, object_attribute_list.cpp:38-49. -/
def attrRemove (m : AttrList) (t : AttrType) : AttrList × Bool :=
  if attrContains m t then (m.filter (fun p => p.1 ≠ t), true) else (m, false)

/-- `AttributeList::Get`, object_attribute_list.cpp:51-58. -/
def attrGet (m : AttrList) (t : AttrType) : Res Nat :=
  match attrFind m t with
  | some i => .ok i
  | none => .error .throw

/-- All attributes and all lists of a program: the objects behind the handles of c_object_attribute_list.cpp. -/
structure AttrWorld where
  cells : List Attr
  lists : List AttrList
  deriving DecidableEq

/-- What a program does with them: c_object_attributes.cpp (`create` makes an attribute, `change` stands for the
setters of ImageMetadataObjectAttribute), c_object_attribute_list.cpp:11-96, and `clone` for
`Object::CloneBaseProperties`, object.cpp:254-268, which the library calls for a copy of an object. -/
inductive AttrCall where
  | create (a : Attr)
  | change (i : Nat) (f : ImageFacts)
  | newList
  | add (l i : Nat) (overwrite : Bool)
  | remove (l : Nat) (t : AttrType)
  | contains (l : Nat) (t : AttrType)
  | get (l : Nat) (t : AttrType)
  | clear (l : Nat)
  | clone (l : Nat)
  deriving DecidableEq

/-- The answers: nothing, a handle, a truth value, an error (c_object_attribute_list.cpp). -/
inductive AttrAnswer where
  | done
  | handle (i : Nat)
  | yes (b : Bool)
  | failed (f : Fault)
  deriving DecidableEq

/-- A list is changed: object_attribute_list.cpp:28-62. -/
def putList (w : AttrWorld) (l : Nat) (m : AttrList) : AttrWorld := { w with lists := w.lists.set l m }

/-- `ObjectAttributeList_Add`, c_object_attribute_list.cpp:22-35. -/
def callAdd (w : AttrWorld) (l i : Nat) (overwrite : Bool) : AttrWorld × AttrAnswer :=
  match w.lists[l]?, w.cells[i]? with
  | some m, some a =>
    match attrAdd m a.type i overwrite with
    | .ok m' => (putList w l m', .done)
    | .error f => (w, .failed f)
  | _, _ => (w, .failed .ub)

/-- `ObjectAttributeList_Remove`, c_object_attribute_list.cpp:37-51. -/
def callRemove (w : AttrWorld) (l : Nat) (t : AttrType) : AttrWorld × AttrAnswer :=
  match w.lists[l]? with
  | some m => (putList w l (attrRemove m t).1, .yes (attrRemove m t).2)
  | none => (w, .failed .ub)

/-- `ObjectAttributeList_Get`, c_object_attribute_list.cpp:69-85. -/
def callGet (w : AttrWorld) (l : Nat) (t : AttrType) : AttrAnswer :=
  match w.lists[l]? with
  | some m =>
    match attrGet m t with
    | .ok i => .handle i
    | .error f => .failed f
  | none => .failed .ub

/-- `Clone` of the attributes of a list, object.cpp:264-267: each is copied under a new handle and added to the list
of the new object, which was empty.  The types of a map are distinct, so `Add` finds none of them there. -/
def cloneList (w : AttrWorld) (m : AttrList) : AttrWorld :=
  ⟨w.cells ++ m.map (fun p => w.cells[p.2]?.getD .empty),
   w.lists ++ [m.zipIdx.map (fun q => (q.1.1, w.cells.length + q.2))]⟩

/-- One call: c_object_attribute_list.cpp:11-96, object.cpp:254-268.  Handles that were never given out are outside
the contract. -/
def attrCall (w : AttrWorld) : AttrCall → AttrWorld × AttrAnswer
  | .create a => ({ w with cells := w.cells ++ [a] }, .handle w.cells.length)
  | .change i f =>
    match w.cells[i]? with
    | some (.image _) => ({ w with cells := w.cells.set i (.image f) }, .done)
    | _ => (w, .failed .ub)
  | .newList => ({ w with lists := w.lists ++ [[]] }, .handle w.lists.length)
  | .add l i ow => callAdd w l i ow
  | .remove l t => callRemove w l t
  | .contains l t =>
    match w.lists[l]? with
    | some m => (w, .yes (attrContains m t))
    | none => (w, .failed .ub)
  | .get l t => (w, callGet w l t)
  | .clear l =>
    match w.lists[l]? with
    | some _ => (putList w l [], .done)
    | none => (w, .failed .ub)
  | .clone l =>
    match w.lists[l]? with
    | some m => (cloneList w m, .handle w.lists.length)
    | none => (w, .failed .ub)

/-- A history: the calls (c_object_attribute_list.cpp) with their answers, oldest first. -/
def attrRun (w : AttrWorld) : List AttrCall → AttrWorld × List (AttrCall × AttrAnswer)
  | [] => (w, [])
  | c :: cs =>
    let r := attrRun (attrCall w c).1 cs
    (r.1, (c, (attrCall w c).2) :: r.2)

/-- `Object::ToPdf` with `HasOverrideAttribute` and `GetOverrideAttribute`, object.cpp:24-51: `plain` is what the
object writes by itself (see Object.lean), `l` its list of attributes. -/
def attrText (w : AttrWorld) (l : Nat) (plain : Bytes) : Res Bytes :=
  match w.lists[l]? with
  | none => .error .ub
  | some m =>
    if attrContains m .override then do
      let i ← attrGet m .override
      match w.cells[i]? with
      | some (.override text) => .ok text
      | _ => .error .conversion
    else .ok plain

/-! ### Bodies of image streams -/

/-- `FilterBase::Decode` with the parameters it is called with: the data and, from the filters of images, what is said
about the image (dct_decode_filter.cpp:406-413, jpx_decode_filter.cpp:167-174). -/
abbrev BodyFilter := Bytes → Res (Bytes × Option ImageFacts)

/-- `object_attributes->Add(metadata_attribute)`, dct_decode_filter.cpp:413, jpx_decode_filter.cpp:174: without
overwriting. -/
def addFacts (w : AttrWorld) (l : Nat) (facts : Option ImageFacts) : AttrWorld × Res Unit :=
  match facts with
  | none => (w, .ok ())
  | some f =>
    match callAdd { w with cells := w.cells ++ [.image f] } l w.cells.length false with
    | (w', .done) => (w', .ok ())
    | (w', .failed e) => (w', .error e)
    | (w', _) => (w', .error .ub)

/-- The loop over the filters of a stream, stream_object.cpp:276-299. -/
def runFilters (w : AttrWorld) (l : Nat) : List BodyFilter → Bytes → AttrWorld × Res Bytes
  | [], b => (w, .ok b)
  | f :: fs, b =>
    match f b with
    | .error e => (w, .error e)
    | .ok (b', facts) =>
      match addFacts w l facts with
      | (w', .error e) => (w', .error e)
      | (w', .ok ()) => runFilters w' l fs b'

/-- A stream: its attributes, its filters, its data and the decoded data once they are known. stream_object.h. -/
structure BodyStream where
  list : Nat
  filters : List BodyFilter
  data : Bytes
  decoded : Option Bytes

/-- `StreamObject::GetBody`, stream_object.cpp:204-307, on data that are decrypted. -/
def readBody (w : AttrWorld) (s : BodyStream) : AttrWorld × BodyStream × Res Bytes :=
  match s.decoded with
  | some b => (w, s, .ok b)
  | none =>
    match runFilters w s.list s.filters s.data with
    | (w', .ok b) => (w', { s with decoded := some b }, .ok b)
    | (w', .error e) => (w', s, .error e)

/-- `StreamObject::Clone`, stream_object.cpp:110-139: the decoded data are copied if they are known, and then the
attributes. -/
def cloneStream (w : AttrWorld) (s : BodyStream) : AttrWorld × BodyStream :=
  ((attrCall w (.clone s.list)).1, { s with list := w.lists.length })

/-- Number of components that `jpeg_set_defaults` takes for a colour space of the input,
dct_decode_filter.cpp:203-213, 257-258. -/
def colorComponents : ImageColors → Option Nat
  | .undefined => none
  | .gray => some 1
  | .rgb => some 3
  | .cmyk => some 4

/-- The loop of `DCTDecodeFilter::Encode`, dct_decode_filter.cpp:262-294: the rows given to libjpeg, `left` of them
to come, each `row` bytes, after `total` bytes of `data`. -/
def encodeRows (row : Nat) (data : Bytes) : Nat → Nat → Res (List Bytes)
  | 0, _ => .ok []
  | left + 1, total =>
    if total + row > data.length then .error .throw
    else do
      let rest ← encodeRows row data left (total + row)
      .ok ((data.drop total).take row :: rest)

/-- `DCTDecodeFilter::Encode`, dct_decode_filter.cpp:159-304, of a stream without parameters: size and colours come
from the attribute.  libjpeg refuses images without points and images larger than 65500 (JERR_EMPTY_IMAGE,
JERR_IMAGE_TOO_BIG).  The result is what libjpeg gets. -/
def dctEncode (w : AttrWorld) (l : Nat) (data : Bytes) : Res (ImageFacts × List Bytes) :=
  match w.lists[l]? with
  | none => .error .ub
  | some m =>
    match attrFind m .image with
    | none => .error .throw
    | some i =>
      match w.cells[i]? with
      | some (.image f) =>
        match colorComponents f.colors with
        | none => .error .throw
        | some n =>
          if f.width = 0 ∨ f.height = 0 ∨ 65500 < f.width ∨ 65500 < f.height then .error .throw
          else do
            let rows ← encodeRows (f.width * n) data f.height 0
            .ok ({ f with components := n }, rows)
      | _ => .error .conversion

end VPdf
