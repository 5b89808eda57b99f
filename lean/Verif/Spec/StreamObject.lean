import Verif.Model.StreamObject
/-
  What a program may rely on when it works with the bodies of streams (C120).
-/
namespace VPdf.Spec

/-- The calls that give the stream `s` another body: setting it, and changing the buffer that `StreamObject_GetBody` handed out. -/
def Rewrites (s : Nat) : StreamCall → Prop
  | .setBody t _ => t = s
  | .setData (.decoded t) _ => t = s
  | _ => False

/-- The calls that change the stream `s`, its dictionary or one of its buffers. -/
def Touches (s : Nat) : StreamCall → Prop
  | .setFilter t _ => t = s
  | .setBody t _ => t = s
  | .setData (.decoded t) _ => t = s
  | .setData (.decrypted t) _ => t = s
  | .setData (.raw t) _ => t = s
  | _ => False

/-- The calls that are about another stream than `s`, or only look at it without asking for its body. -/
def Elsewhere (s : Nat) (c : StreamCall) : Prop := ¬ Touches s c ∧ c ≠ .getBody s ∧ c ≠ .attach s

/-- No filter, or Flate without a predictor, once or several times. -/
def FlateOnly : Option FilterEntry → Prop
  | none => True
  | some .absent => True
  | some (.name f p) => f = .flate ∧ p.predictor = 1
  | some (.array fs) => ∀ x ∈ fs, x.1 = .flate ∧ x.2.predictor = 1

/-- The call `c` in `w` shows or sets the body `d` of the stream `s`: it succeeds, and it sets the body to the contents of a buffer,
changes the buffer of the body, or reads the body. -/
inductive Settles (m : Overflow) (k : Codecs) (w : StreamWorld) (s : Nat) (d : Bytes) : StreamCall → Prop where
  | set (b : BufferRef) (given : (w.step m k (.getData b)).2 = .ok (.data d)) (ok : (w.step m k (.setBody s b)).2 = .ok .done) :
      Settles m k w s d (.setBody s b)
  | edit (ok : (w.step m k (.setData (.decoded s) d)).2 = .ok .done) : Settles m k w s d (.setData (.decoded s) d)
  | read (ok : (w.step m k (.getBody s)).2 = .ok (.buffer (.decoded s)))
      (shown : ((w.step m k (.getBody s)).1.step m k (.getData (.decoded s))).2 = .ok (.data d)) :
      Settles m k w s d (.getBody s)

/-- A program that asks for the body of `s` in `w` sees `d`: it gets a buffer with these contents. -/
def SeesBody (m : Overflow) (k : Codecs) (w : StreamWorld) (s : Nat) (d : Bytes) : Prop :=
  ∃ b, (w.step m k (.getBody s)).2 = .ok (.buffer b) ∧
    ((w.step m k (.getBody s)).1.step m k (.getData b)).2 = .ok (.data d)

end VPdf.Spec
